import Verif.Spec.Types
import Verif.Proof.SimBase
/-!
# The frame table built by `appendTypeToStack` describes the tree of the type
-/
namespace Verif.Proof.Types
open Verif.Model Verif.Big Verif.Spec Verif.Proof.Sim

theorem canUse_le {env : TypeEnv} {t : TypeId} (h : canUseAssignFaststr env t = true) : (env (env t).elem).size ≤ 128 := by
  simp only [canUseAssignFaststr, Bool.and_eq_true, decide_eq_true_eq] at h
  exact h.1

/-- The frames `l` are at positions `n, n + 1, …`. -/
def At (fr : List Frame) (n : Nat) (l : List Frame) : Prop := ∀ i f, l[i]? = some f → fr[n + i]? = some f

/-- The frame up to what the parent sets. -/
def Variant (r root : Frame) : Prop := ∃ c o p, r = { root with cap := c, offset := o, parent := p }

/-- The types on the stack have been seen. -/
def SeenOK (stack : List Frame) (seen : List TypeId) : Prop := ∀ f ∈ stack, ∀ r, f.rtype = some r → r ∈ seen

theorem Variant.refl (r : Frame) : Variant r r := ⟨r.cap, r.offset, r.parent, rfl⟩

theorem modify_at {α : Type} (l r : List α) (a : α) (n : Nat) (h : n = l.length) (g : α → α) : (l ++ a :: r).modify n g = l ++ g a :: r := by
  subst h
  induction l with
  | nil => rfl
  | cons b l ih => simpa using ih

theorem get_at {α : Type} (l r : List α) (a : α) : (l ++ a :: r)[l.length]? = some a := by simp

theorem findRType_none {e : TypeId} : ∀ {stack : List Frame}, (∀ f ∈ stack, f.rtype ≠ some e) → findRType e stack = none
  | [], _ => rfl
  | f :: fs, h => by
    simp only [findRType]
    rw [if_neg (h f (by simp)), findRType_none (fun g hg => h g (by simp [hg]))]
    rfl

theorem SeenOK.find {stack : List Frame} {seen : List TypeId} (h : SeenOK stack seen) {e : TypeId} (he : seen.contains e = false) : findRType e stack = none := by
  apply findRType_none
  intro f hf hr
  have := h f hf e hr
  simp at he
  exact he this

theorem SeenOK.push {stack : List Frame} {seen : List TypeId} (h : SeenOK stack seen) {f : Frame} (hf : f.rtype = none) : SeenOK (stack ++ [f]) seen := by
  intro g hg r hr
  simp only [List.mem_append, List.mem_singleton] at hg
  rcases hg with hg | hg
  · exact h g hg r hr
  · subst hg; rw [hf] at hr; cases hr

theorem SeenOK.push' {stack : List Frame} {seen : List TypeId} (h : SeenOK stack seen) {f : Frame} {t : TypeId} (hf : f.rtype = some t) : SeenOK (stack ++ [f]) (t :: seen) := by
  intro g hg r hr
  simp only [List.mem_append, List.mem_singleton] at hg
  rcases hg with hg | hg
  · exact List.mem_cons_of_mem _ (h g hg r hr)
  · subst hg; rw [hf] at hr; cases hr; simp

/-- Only the `rtype`s matter. -/
theorem SeenOK.congr {s s' : List Frame} {seen : List TypeId} (h : SeenOK s seen) (he : s'.map (·.rtype) = s.map (·.rtype)) : SeenOK s' seen := by
  intro g hg r hr
  have : some r ∈ s'.map (·.rtype) := by rw [← hr]; exact List.mem_map_of_mem hg
  rw [he, List.mem_map] at this
  obtain ⟨f, hf, hfr⟩ := this
  exact h f hf r hfr

/-- What the recursive call for a type has to deliver. -/
structure Built (x : Ext) (stack : List Frame) (res : AppendRes) (ty : Ty) (size : Nat) (seen' : List TypeId) (root : Frame) (tl : List Frame) : Prop where
  app : res = .ok (stack ++ root :: tl)
  len : 1 + tl.length = ty.width
  parent : root.parent = none
  offset : root.offset = 0
  type : root.type = ty.etype
  rep : ∀ fr r, Variant r root → fr[stack.length]? = some r → At fr (stack.length + 1) tl → Rep x fr ty stack.length
  seen : SeenOK (stack ++ root :: tl) seen'
  ok : OK x ty
  size : ty.size x = size

/-- Types of a single frame. -/
theorem built_flat {x : Ext} {stack : List Frame} {ty : Ty} {size : Nat} {seen seen' : List TypeId} {root : Frame} (hs : SeenOK stack seen)
    (hr : root.rtype = none ∧ seen' = seen ∨ ∃ t, root.rtype = some t ∧ seen' = t :: seen) (hw : ty.width = 1) (hp : root.parent = none) (ho : root.offset = 0)
    (hty : root.type = ty.etype)
    (hrep : ∀ fr b r, Variant r root → fr[b]? = some r → Rep x fr ty b) (hok : OK x ty) (hsz : ty.size x = size) :
    Built x stack (.ok (stack ++ [root])) ty size seen' root [] := by
  refine ⟨rfl, by simp [hw], hp, ho, hty, fun fr r hv hf _ => hrep fr _ r hv hf, ?_, hok, hsz⟩
  rcases hr with ⟨h1, rfl⟩ | ⟨t, h1, rfl⟩
  · exact hs.push h1
  · exact hs.push' h1

theorem At.cons {fr : List Frame} {n : Nat} {a : Frame} {l : List Frame} (h : At fr n (a :: l)) : fr[n]? = some a ∧ At fr (n + 1) l := by
  refine ⟨h 0 a rfl, fun i f hi => ?_⟩
  have := h (i + 1) f (by simpa using hi)
  rw [← this]; congr 1; omega

theorem At.append {fr : List Frame} {n : Nat} {a b : List Frame} (h : At fr n (a ++ b)) : At fr n a ∧ At fr (n + a.length) b := by
  refine ⟨fun i f hi => h i f ?_, fun i f hi => ?_⟩
  · rw [List.getElem?_append_left]
    · exact hi
    · exact (List.getElem?_eq_some_iff.1 hi).1
  · have := h (a.length + i) f (by rw [List.getElem?_append_right (by omega)]; simpa using hi)
    rw [← this]; congr 1; omega

/-- A type with one element type: `parent` frame, then the frames of the element, whose root is linked to the parent. -/
theorem built_elem {x : Ext} {stack : List Frame} {ty e : Ty} {size esize : Nat} {seen' : List TypeId} {root croot : Frame} {ctl : List Frame} {res : AppendRes}
    (hb : Built x (stack ++ [root]) res e esize seen' croot ctl) (g : Frame → Frame) (hg : Variant (g croot) croot)
    (hw : ty.width = 1 + e.width)
    (hp : root.parent = none) (ho : root.offset = 0) (hty : root.type = ty.etype)
    (hrep : ∀ fr b r, b = stack.length → Variant r root → fr[b]? = some r → fr[b + 1]? = some (g croot) → Rep x fr e (b + 1) → Rep x fr ty b)
    (hok : OK x e → OK x ty) (hsz : ty.size x = size) :
    Built x stack (match res with
      | .ok stack' => .ok (stack'.modify (stack.length + 1) g)
      | r => r) ty size seen' root (g croot :: ctl) := by
  have hlen := hb.len
  obtain ⟨c, o, p, hgv⟩ := hg
  refine ⟨?_, by simp only [List.length_cons]; omega, hp, ho, hty, ?_, ?_, hok hb.ok, hsz⟩
  · rw [hb.app]
    simp only []
    rw [modify_at _ _ _ _ (by simp)]
    simp
  · intro fr r hv hf hat
    obtain ⟨h1, h2⟩ := hat.cons
    have hl : (stack ++ [root]).length = stack.length + 1 := by simp
    have hc := hb.rep fr (g croot) ⟨c, o, p, hgv⟩ (by rw [hl]; exact h1) (by rw [hl]; exact h2)
    rw [hl] at hc
    exact hrep fr _ r rfl hv hf h1 hc
  · refine hb.seen.congr ?_
    simp [hgv]

theorem etype_scalar {ty : Ty} {k : SKind} (h : ty.etype = .scalar k) : ty = .scalar k := by
  cases ty <;> simp [Ty.etype] at h
  rw [h]

/-- The `string` option on a field: the frame type and the tree change alike. -/
theorem built_quoted {x : Ext} {stack : List Frame} {res : AppendRes} {k : SKind} {size : Nat} {seen' : List TypeId} {root : Frame} {tl : List Frame}
    (hb : Built x stack res (.scalar k) size seen' root tl) {fr : List Frame} {b : Nat} {r : Frame} (hv : Variant r root) (hf : fr[b]? = some { r with type := .quoted k }) :
    Rep x fr (.quoted k) b := by
  obtain ⟨c, o, p, hv⟩ := hv
  have htl : tl = [] := by
    have := hb.len
    simp only [Ty.width] at this
    exact List.length_eq_zero_iff.1 (by omega)
  have h1 := hb.rep (stack ++ [root]) root (Variant.refl root) (by simp) (by rw [htl]; intro i f hi; simp at hi)
  simp only [Rep] at h1 ⊢
  obtain ⟨f, hf', -, hs⟩ := h1
  simp at hf'; subst hf'
  refine ⟨_, hf, rfl, ?_⟩
  rw [hv]; exact hs

theorem built_fields {x : Ext} {env : TypeEnv} {opts : Option InitOptions} {allow : Bool} {size : Nat}
    (hopt : allow = true → ∃ o, opts = some o ∧ o.disallowStringTagOptOnUnsupportedTypes = false)
    {tree : List TypeId → TypeId → Option (Ty × List TypeId)} {rec' : List Frame → TypeId → AppendRes}
    (hrec : ∀ seen t ty seen' stack, tree seen t = some (ty, seen') → SeenOK stack seen → ∃ root tl, Built x stack (rec' stack t) ty (env t).size seen' root tl) :
    ∀ (fs : List FieldInfo) (seen : List TypeId) (fts : List (Bytes × Nat × Ty)) (seen' : List TypeId) (pre : List Frame) (sf : Frame) (acc : List Frame),
      fieldTrees tree allow seen fs = some (fts, seen') → SeenOK (pre ++ sf :: acc) seen → Layout.FieldsIn env size fs →
      ∃ tbl new, appendFields rec' opts pre.length fs (pre ++ sf :: acc) = .ok (pre ++ { sf with fields := sf.fields ++ tbl } :: (acc ++ new)) ∧
        new.length = widthF fts ∧
        (∀ fr, At fr (pre.length + 1 + acc.length) new → RepFields x fr pre.length fts (pre.length + 1 + acc.length) tbl) ∧
        SeenOK (pre ++ { sf with fields := sf.fields ++ tbl } :: (acc ++ new)) seen' ∧ OKF x size fts ∧
        (∀ g ∈ fts, ∃ f ∈ fs, g.2.1 = f.offset ∧ g.2.2.size x = (env f.type).size) := by
  intro fs
  induction fs with
  | nil =>
    intro seen fts seen' pre sf acc h hs _
    simp only [fieldTrees, Option.some.injEq, Prod.mk.injEq] at h
    obtain ⟨rfl, rfl⟩ := h
    exact ⟨[], [], by simp [appendFields], rfl, fun _ _ => by simp [RepFields], by simpa using hs, trivial, by simp⟩
  | cons f fs ih =>
    intro seen fts seen' pre sf acc h hs hL
    obtain ⟨hL1, hL2, hL3⟩ := hL
    simp only [fieldTrees] at h
    cases hpt : parseTag f.name f.tag with
    | none =>
      rw [hpt] at h
      obtain ⟨tbl, new, h1, h2, h3, h4, h5, h6⟩ := ih seen fts seen' pre sf acc h hs hL3
      refine ⟨tbl, new, by simp only [appendFields, hpt]; exact h1, h2, h3, h4, h5, fun g hg => ?_⟩
      obtain ⟨f', hf', h⟩ := h6 g hg
      exact ⟨f', by simp [hf'], h⟩
    | some no =>
      obtain ⟨name, opt⟩ := no
      rw [hpt] at h
      simp only [] at h
      cases htr : tree seen f.type with
      | none => rw [htr] at h; cases h
      | some r =>
        obtain ⟨ty, seen1⟩ := r
        rw [htr] at h
        simp only [] at h
        obtain ⟨root, tl, hb⟩ := hrec _ _ _ _ _ htr hs
        -- the tree and root frame after the `string` option
        obtain ⟨ty', root', hty', hw', hsz', hok', hrt', happ, hrep'⟩ : ∃ ty' root', withString allow opt ty = some ty' ∧
            ty'.width = ty.width ∧ ty'.size x = ty.size x ∧ OK x ty' ∧ root'.rtype = root.rtype ∧
            appendFields rec' opts pre.length (f :: fs) (pre ++ sf :: acc) =
              appendFields rec' opts pre.length fs (pre ++ { sf with fields := sf.fields ++ [(name, pre.length + 1 + acc.length)] } :: (acc ++ root' :: tl)) ∧
            ∀ fr, At fr (pre.length + 1 + acc.length) (root' :: tl) →
              Linked fr pre.length (pre.length + 1 + acc.length) (fun c => c.offset = f.offset) ∧ Rep x fr ty' (pre.length + 1 + acc.length) := by
          have hlen : (pre ++ sf :: acc).length = pre.length + 1 + acc.length := by simp; omega
          have hm1 : ∀ g : Frame → Frame, (pre ++ sf :: acc ++ root :: tl).modify pre.length g = pre ++ g sf :: acc ++ root :: tl := by
            intro g
            have := modify_at pre (acc ++ root :: tl) sf pre.length rfl g
            simpa using this
          have hm2 : ∀ (q : Frame) (r : Frame) (g : Frame → Frame), (pre ++ q :: acc ++ r :: tl).modify (pre ++ sf :: acc).length g = pre ++ q :: acc ++ g r :: tl := by
            intro q r g
            exact modify_at (pre ++ q :: acc) tl r _ (by simp) g
          have hg2 : ∀ (q : Frame) (r : Frame), (pre ++ q :: acc ++ r :: tl)[(pre ++ sf :: acc).length]? = some r := by
            intro q r
            have := get_at (pre ++ q :: acc) tl r
            rw [← this]; congr 1; simp
          have hplain : ∀ fr, At fr (pre.length + 1 + acc.length) ({ root with offset := f.offset, parent := some pre.length } :: tl) →
              Linked fr pre.length (pre.length + 1 + acc.length) (fun c => c.offset = f.offset) ∧ Rep x fr ty (pre.length + 1 + acc.length) := by
            intro fr hat
            obtain ⟨k1, k2⟩ := hat.cons
            refine ⟨⟨_, k1, rfl, rfl⟩, ?_⟩
            have := hb.rep fr _ ⟨_, _, _, rfl⟩ (by rw [hlen]; exact k1) (by rw [hlen]; exact k2)
            rw [hlen] at this; exact this
          cases opt with
          | false =>
            refine ⟨ty, { root with offset := f.offset, parent := some pre.length }, rfl, rfl, rfl, hb.ok, rfl, ?_, hplain⟩
            simp only [appendFields, hpt, hb.app, hm1, hm2]
            simp [hlen, Nat.add_assoc]
          | true =>
            by_cases hk : ∃ k, ty = .scalar k
            · obtain ⟨k, rfl⟩ := hk
              have ht := hb.type
              simp only [Ty.etype] at ht
              refine ⟨.quoted k, { root with offset := f.offset, parent := some pre.length, type := .quoted k }, rfl, rfl, rfl, trivial, rfl, ?_, ?_⟩
              · simp only [appendFields, hpt, hb.app, hm1, hm2, hg2, ht, retagString]
                simp [hlen, Nat.add_assoc]
              · intro fr hat
                obtain ⟨k1, k2⟩ := hat.cons
                exact ⟨⟨_, k1, rfl, rfl⟩, built_quoted hb (r := { root with offset := f.offset, parent := some pre.length }) ⟨_, _, _, rfl⟩ k1⟩
            · have hns : withString allow true ty = if allow then some ty else none := by
                cases ty <;> first | rfl | exact absurd ⟨_, rfl⟩ hk
              rw [hns] at h ⊢
              cases hal : allow with
              | false => rw [hal] at h; cases h
              | true =>
                obtain ⟨o, ho, hod⟩ := hopt hal
                have hrt : retagString root.type = none := by
                  rw [hb.type]
                  cases ty <;> first | rfl | exact absurd ⟨_, rfl⟩ hk
                refine ⟨ty, { root with offset := f.offset, parent := some pre.length }, rfl, rfl, rfl, hb.ok, rfl, ?_, hplain⟩
                simp only [appendFields, hpt, hb.app, hm1, hm2, hg2, hrt, ho, hod]
                simp [hlen, Nat.add_assoc]
        rw [hty'] at h
        simp only [] at h
        cases hft : fieldTrees tree allow seen1 fs with
        | none => rw [hft] at h; cases h
        | some r =>
          obtain ⟨fts1, seen2⟩ := r
          rw [hft] at h
          simp only [Option.map_some, Option.some.injEq, Prod.mk.injEq] at h
          obtain ⟨rfl, rfl⟩ := h
          have hs' : SeenOK (pre ++ { sf with fields := sf.fields ++ [(name, pre.length + 1 + acc.length)] } :: (acc ++ root' :: tl)) seen1 :=
            hb.seen.congr (by simp [hrt'])
          obtain ⟨tbl, new, h1, h2, h3, h4, h5, h6⟩ := ih seen1 fts1 seen2 pre _ (acc ++ root' :: tl) hft hs' hL3
          have hlt : (root' :: tl).length = ty.width := by have := hb.len; simp only [List.length_cons]; omega
          refine ⟨(name, pre.length + 1 + acc.length) :: tbl, root' :: tl ++ new, ?_, ?_, ?_, ?_, ?_, ?_⟩
          · rw [happ, h1]; simp
          · rw [List.length_append, hlt, h2]; simp [widthF, hw']
          · intro fr hat
            obtain ⟨k1, k2⟩ := hat.append
            obtain ⟨k3, k4⟩ := hrep' fr k1
            refine ⟨tbl, rfl, k3, k4, ?_⟩
            have := h3 fr (by rw [List.length_append, ← Nat.add_assoc]; exact k2)
            rw [List.length_append, hlt, ← Nat.add_assoc] at this
            rw [hw']; exact this
          · refine h4.congr ?_
            simp
          · refine ⟨by rw [hsz', hb.size]; exact hL1, hok', ?_, h5⟩
            intro g hg
            obtain ⟨f', hf', g1, g2⟩ := h6 g hg
            rw [hsz', hb.size, g1, g2]
            exact hL2 f' hf'
          · intro g hg
            simp only [List.mem_cons] at hg
            rcases hg with rfl | hg
            · exact ⟨f, by simp, rfl, by rw [hsz', hb.size]⟩
            · obtain ⟨f', hf', h⟩ := h6 g hg
              exact ⟨f', by simp [hf'], h⟩

theorem key_built {x : Ext} {env : TypeEnv} {opts : Option InitOptions} {d : Nat} {t : TypeId} {k : KeyTy} {s seen : List TypeId} {stack : List Frame}
    (h : keyTree env t = some (k, s)) (hs : SeenOK stack seen) :
    ∃ root, appendType env x.W opts (d + 1) stack (some t) = .ok (stack ++ [root]) ∧ (∀ r, Variant r root → k.Rep r) ∧ SeenOK (stack ++ [root]) (s ++ seen) := by
  simp only [keyTree] at h
  by_cases h1 : (env t).implJSON = true
  · rw [if_pos h1] at h
    cases h
    refine ⟨{ type := .jsonUnmarshaler, rtype := some t, ptrImpl := callable (env t), size := (env t).size, typ := some t }, ?_, ?_, hs.push' rfl⟩
    · simp only [appendType, h1, if_pos]; rfl
    · rintro r ⟨c, o, p, rfl⟩; exact ⟨rfl, nofun, nofun⟩
  · rw [if_neg h1] at h
    by_cases h2 : (env t).implText = true
    · rw [if_pos h2] at h
      cases h
      refine ⟨{ type := .textUnmarshaler, rtype := some t, ptrImpl := callable (env t), size := (env t).size, typ := some t }, ?_, ?_, hs.push' rfl⟩
      · simp only [appendType, if_neg h1, h2, if_pos]; rfl
      · rintro r ⟨c, o, p, rfl⟩; exact ⟨rfl, rfl, rfl⟩
    · rw [if_neg h2] at h
      cases hk : (env t).kind <;> rw [hk] at h <;> simp only [] at h
      case bool =>
        cases h
        exact ⟨{ type := .scalar .bool, size := (env t).size, typ := some t }, by simp only [appendType, if_neg h1, if_neg h2, hk], by rintro r ⟨c, o, p, rfl⟩; exact ⟨rfl, nofun, nofun⟩, hs.push rfl⟩
      case string =>
        by_cases hn : (env t).isNumber = true
        · simp only [hn, if_pos] at h
          cases h
          exact ⟨{ type := .number, size := (env t).size, typ := some t }, by simp only [appendType, if_neg h1, if_neg h2, hk, if_pos hn], by rintro r ⟨c, o, p, rfl⟩; exact ⟨rfl, nofun, nofun⟩, hs.push rfl⟩
        · rw [if_neg hn] at h
          cases h
          exact ⟨{ type := .scalar .str, size := (env t).size, typ := some t }, by simp only [appendType, if_neg h1, if_neg h2, hk, if_neg hn], by rintro r ⟨c, o, p, rfl⟩; rfl, hs.push rfl⟩
      case int k' =>
        cases h
        exact ⟨{ type := .scalar (.int k'), size := (env t).size, typ := some t }, by simp only [appendType, if_neg h1, if_neg h2, hk], by rintro r ⟨c, o, p, rfl⟩; rfl, hs.push rfl⟩
      case float k' =>
        cases h
        exact ⟨{ type := .scalar (.flt k'), size := (env t).size, typ := some t }, by simp only [appendType, if_neg h1, if_neg h2, hk], by rintro r ⟨c, o, p, rfl⟩; exact ⟨rfl, nofun, nofun⟩, hs.push rfl⟩
      case interface =>
        by_cases hn : (env t).numMethod = 0
        · rw [if_pos hn] at h
          cases h
          exact ⟨{ type := .any, size := 2 * x.W, typ := some t }, by simp [appendType, h1, h2, hk, hn], by rintro r ⟨c, o, p, rfl⟩; exact ⟨rfl, nofun, nofun⟩, hs.push rfl⟩
        · rw [if_neg hn] at h; cases h
      all_goals cases h

theorem link_eq (n i : Nat) (r : AppendRes) : linkParent n i r = (match r with
    | .ok stack' => .ok (stack'.modify i fun f => { f with parent := some n })
    | r => r) := by
  cases r <;> rfl

theorem variant_get {P : Frame → Prop} {fr : List Frame} {b : Nat} {r root : Frame} (hv : Variant r root) (hf : fr[b]? = some r)
    (h : ∀ c o p, P { root with cap := c, offset := o, parent := p }) : ∃ f, fr[b]? = some f ∧ P f := by
  obtain ⟨c, o, p, rfl⟩ := hv
  exact ⟨_, hf, h c o p⟩

theorem layout_scalar {env : TypeEnv} {x : Ext} (hL : Layout env x) {t : TypeId} :
    ((env t).kind = .bool → (env t).size = 1) ∧ ((env t).kind = .string → (env t).size = 2 * x.W) ∧ (∀ k, (env t).kind = .int k → (env t).size = (SKind.int k).bytes x) ∧
    (∀ k, (env t).kind = .float k → (env t).size = (SKind.flt k).bytes x) := by
  have h := hL t
  refine ⟨fun hk => ?_, fun hk => ?_, fun k hk => ?_, fun k hk => ?_⟩ <;> rw [hk] at h
  · exact h
  · exact h
  · exact h
  · cases k <;> exact h

/-- `appendTypeToStack` appends the frames of the tree of the type. -/
theorem tree_built {env : TypeEnv} {x : Ext} (hL : Layout env x) {allow : Bool} {opts : Option InitOptions}
    (hopt : allow = true → ∃ o, opts = some o ∧ o.disallowStringTagOptOnUnsupportedTypes = false) :
    ∀ (depth : Nat) (seen : List TypeId) (t : TypeId) (ty : Ty) (seen' : List TypeId) (stack : List Frame),
      typeTree env allow depth seen t = some (ty, seen') → SeenOK stack seen →
      ∃ root tl, Built x stack (appendType env x.W opts depth stack (some t)) ty (env t).size seen' root tl := by
  intro depth
  induction depth with
  | zero => intro seen t ty seen' stack h; cases h
  | succ d ih =>
    intro seen t ty seen' stack h hs
    simp only [typeTree] at h
    by_cases h1 : (env t).implJSON = true
    · rw [if_pos h1] at h
      cases h
      have := built_flat (x := x) (ty := .jsonU t (env t).size (callable (env t))) (size := (env t).size)
        (root := { type := .jsonUnmarshaler, rtype := some t, ptrImpl := callable (env t), size := (env t).size, typ := some t })
        hs (.inr ⟨t, rfl, rfl⟩) rfl rfl rfl rfl (fun fr b r hv hf => by simp only [Rep]; exact variant_get hv hf fun c o p => ⟨rfl, rfl, rfl, rfl⟩) trivial rfl
      refine ⟨{ type := .jsonUnmarshaler, rtype := some t, ptrImpl := callable (env t), size := (env t).size, typ := some t }, [], ?_⟩
      simp only [appendType, h1, if_pos]
      exact this
    rw [if_neg h1] at h
    by_cases h2 : (env t).implText = true
    · rw [if_pos h2] at h
      cases h
      have := built_flat (x := x) (ty := .textU t (env t).size (callable (env t))) (size := (env t).size)
        (root := { type := .textUnmarshaler, rtype := some t, ptrImpl := callable (env t), size := (env t).size, typ := some t })
        hs (.inr ⟨t, rfl, rfl⟩) rfl rfl rfl rfl (fun fr b r hv hf => by simp only [Rep]; exact variant_get hv hf fun c o p => ⟨rfl, rfl, rfl, rfl⟩) trivial rfl
      refine ⟨{ type := .textUnmarshaler, rtype := some t, ptrImpl := callable (env t), size := (env t).size, typ := some t }, [], ?_⟩
      simp only [appendType, if_neg h1, h2, if_pos]
      exact this
    rw [if_neg h2] at h
    obtain ⟨hLb, hLs, hLi, hLf⟩ := layout_scalar hL (t := t)
    have hLt := hL t
    have flat : ∀ (ty0 : Ty) (root : Frame), root.rtype = none → ty0.width = 1 → root.parent = none → root.offset = 0 → root.type = ty0.etype → root.size = ty0.size x →
        (∀ fr b, (∃ f, fr[b]? = some f ∧ f.type = ty0.etype ∧ f.size = ty0.size x) → Rep x fr ty0 b) → OK x ty0 → ty0.size x = (env t).size →
        Built x stack (.ok (stack ++ [root])) ty0 (env t).size seen root [] := by
      intro ty0 root hr hw hp ho hty hsz hrep hok hsize
      exact built_flat hs (.inl ⟨hr, rfl⟩) hw hp ho hty (fun fr b r hv hf => hrep fr b (variant_get hv hf fun c o p => ⟨hty, hsz⟩)) hok hsize
    cases hk : (env t).kind <;> rw [hk] at h hLt <;> simp only [] at h hLt
    case bool =>
      cases h
      refine ⟨{ type := .scalar .bool, size := (env t).size, typ := some t }, [], ?_⟩
      simp only [appendType, if_neg h1, if_neg h2, hk]
      exact flat _ _ rfl rfl rfl rfl rfl hLt (fun fr b h => h) trivial hLt.symm
    case string =>
      cases h
      by_cases hn : (env t).isNumber = true
      · simp only [hn, if_pos]
        refine ⟨{ type := .number, size := (env t).size, typ := some t }, [], ?_⟩
        simp only [appendType, if_neg h1, if_neg h2, hk, if_pos hn]
        exact flat _ _ rfl rfl rfl rfl rfl hLt (fun fr b h => h) trivial hLt.symm
      · rw [if_neg hn]
        refine ⟨{ type := .scalar .str, size := (env t).size, typ := some t }, [], ?_⟩
        simp only [appendType, if_neg h1, if_neg h2, hk, if_neg hn]
        exact flat _ _ rfl rfl rfl rfl rfl hLt (fun fr b h => h) trivial hLt.symm
    case int k =>
      cases h
      refine ⟨{ type := .scalar (.int k), size := (env t).size, typ := some t }, [], ?_⟩
      simp only [appendType, if_neg h1, if_neg h2, hk]
      exact flat _ _ rfl rfl rfl rfl rfl (hLi k hk) (fun fr b h => h) trivial (hLi k hk).symm
    case float k =>
      cases h
      refine ⟨{ type := .scalar (.flt k), size := (env t).size, typ := some t }, [], ?_⟩
      simp only [appendType, if_neg h1, if_neg h2, hk]
      exact flat _ _ rfl rfl rfl rfl rfl (hLf k hk) (fun fr b h => h) trivial (hLf k hk).symm
    case interface =>
      by_cases hn : (env t).numMethod = 0
      · rw [if_pos hn] at h
        cases h
        refine ⟨{ type := .any, size := 2 * x.W, typ := some t }, [], ?_⟩
        simp only [appendType, if_neg h1, if_neg h2, hk, hn]
        exact flat .any _ rfl rfl rfl rfl rfl rfl (fun fr b h => h) trivial hLt.symm
      · rw [if_neg hn] at h; cases h
    case array =>
      by_cases hn : (env t).len = 0
      · rw [if_pos hn] at h
        cases h
        refine ⟨{ type := .arrayLen0, size := 0, typ := some t }, [], ?_⟩
        simp only [appendType, if_neg h1, if_neg h2, hk, if_pos hn]
        exact flat .array0 _ rfl rfl rfl rfl rfl rfl (fun fr b h => h) trivial (by rw [hLt, hn]; simp [Ty.size])
      · rw [if_neg hn] at h
        cases he : typeTree env allow d seen (env t).elem with
        | none => rw [he] at h; cases h
        | some r =>
          obtain ⟨e, se⟩ := r
          rw [he] at h
          cases h
          obtain ⟨croot, ctl, hb⟩ := ih _ _ _ _ (stack ++ [{ type := .array, size := (env t).size, typ := some t }]) he (hs.push rfl)
          refine ⟨{ type := .array, size := (env t).size, typ := some t }, { croot with parent := some stack.length, cap := (env t).len } :: ctl, ?_⟩
          simp only [appendType, if_neg h1, if_neg h2, hk, if_neg hn]
          refine built_elem (ty := .array (env t).len e) hb (fun f => { f with parent := some stack.length, cap := (env t).len }) ⟨_, croot.offset, _, rfl⟩ rfl rfl rfl rfl
            (fun fr b r hbeq hv hf hc hre => ?_) (fun h => h) (by simp only [Ty.size]; rw [hb.size, hLt])
          subst hbeq
          refine ⟨variant_get hv hf fun c o p => ⟨rfl, ?_⟩, by omega, ⟨_, hc, rfl, rfl⟩, hre⟩
          simp only []
          rw [hLt, hb.size]
    case slice =>
      by_cases hes : (env (env t).elem).kind = .struct ∧ (env (env t).elem).size = 0
      · rw [if_pos hes] at h
        cases h
        refine ⟨{ type := .sliceEmptyStruct, size := (env t).size, typ := some t }, [], ?_⟩
        simp only [appendType, if_neg h1, if_neg h2, hk, hes.1, hes.2]
        exact flat .sliceES _ rfl rfl rfl rfl rfl hLt (fun fr b h => h) trivial hLt.symm
      · rw [if_neg hes] at h
        cases hsc : sliceScalar (env (env t).elem) with
        | some k =>
          rw [hsc] at h
          cases h
          refine ⟨{ type := .sliceOf k, size := (env t).size, typ := some t }, [], ?_⟩
          have hap : appendType env x.W opts (d + 1) stack (some t) = .ok (stack ++ [{ type := .sliceOf k, size := (env t).size, typ := some t }]) := by
            simp only [sliceScalar] at hsc
            simp only [appendType, if_neg h1, if_neg h2, hk]
            cases hke : (env (env t).elem).kind <;> rw [hke] at hsc <;> simp [Kind.scalar?] at hsc
            · subst hsc; rfl
            · obtain ⟨hnum, rfl⟩ := hsc
              simp [hnum]
            · subst hsc; rfl
            · subst hsc; rfl
          rw [hap]
          exact flat (.sliceOf k) _ rfl rfl rfl rfl rfl hLt (fun fr b h => h) trivial hLt.symm
        | none =>
          rw [hsc] at h
          simp only [] at h
          by_cases hrc : (isStruct1 (env (env t).elem) && seen.contains (env t).elem) = true
          · rw [if_pos hrc] at h; cases h
          · rw [if_neg hrc] at h
            cases he : typeTree env allow d seen (env t).elem with
            | none => rw [he] at h; cases h
            | some r =>
              obtain ⟨e, se⟩ := r
              rw [he] at h
              cases h
              obtain ⟨croot, ctl, hb⟩ := ih _ _ _ _ (stack ++ [{ type := .slice, size := (env t).size, typ := some t }]) he (hs.push rfl)
              refine ⟨{ type := .slice, size := (env t).size, typ := some t }, { croot with parent := some stack.length } :: ctl, ?_⟩
              have hap : appendType env x.W opts (d + 1) stack (some t) = linkParent stack.length (stack.length + 1)
                  (appendType env x.W opts d (stack ++ [{ type := .slice, size := (env t).size, typ := some t }]) (some (env t).elem)) := by
                simp only [appendType, if_neg h1, if_neg h2, hk]
                simp only [sliceScalar] at hsc
                cases hke : (env (env t).elem).kind <;> rw [hke] at hsc <;> simp [Kind.scalar?] at hsc <;> simp only []
                case struct =>
                  have hsz : ¬ (env (env t).elem).size < 1 := by
                    intro hc; exact hes ⟨hke, by omega⟩
                  have hct : seen.contains (env t).elem = false := by
                    simp only [isStruct1, hke, true_and, Bool.and_eq_true, not_and, Bool.not_eq_true, decide_eq_true_eq] at hrc
                    exact hrc (by omega)
                  rw [if_neg hsz, hs.find hct]
                case string => rw [if_pos hsc]
              rw [hap, link_eq]
              refine built_elem (ty := .slice e) hb (fun f => { f with parent := some stack.length }) ⟨croot.cap, croot.offset, _, rfl⟩ rfl rfl rfl rfl
                (fun fr b r hbeq hv hf hc hre => ?_) (fun h => h) (by simp only [Ty.size]; rw [hLt])
              subst hbeq
              exact ⟨variant_get hv hf fun c o p => ⟨rfl, hLt⟩, ⟨_, hc, rfl, trivial⟩, hre⟩
    case map =>
      by_cases hrc : (isStruct1 (env (env t).elem) && seen.contains (env t).elem) = true
      · rw [if_pos hrc] at h; cases h
      rw [if_neg hrc] at h
      have hfind : (if (env (env t).elem).kind = .struct ∧ 0 < (env (env t).elem).size then findRType (env t).elem stack else none) = none := by
        by_cases hc : (env (env t).elem).kind = .struct ∧ 0 < (env (env t).elem).size
        · rw [if_pos hc]
          refine hs.find ?_
          simp only [isStruct1, hc.1, hc.2, and_self, decide_true, Bool.true_and, Bool.not_eq_true] at hrc
          exact hrc
        · rw [if_neg hc]
      by_cases hss : (env (env t).key).kind = .string ∧ (env (env t).elem).kind = .string
      · rw [if_pos hss] at h
        cases h
        refine ⟨{ type := .mapStringString, rtype := some t, size := (env t).size, typ := some t }, [], ?_⟩
        have hap : appendType env x.W opts (d + 1) stack (some t) = .ok (stack ++ [{ type := .mapStringString, rtype := some t, size := (env t).size, typ := some t }]) := by
          simp only [appendType, if_neg h1, if_neg h2, hk, hfind, if_pos hss]
        rw [hap]
        exact built_flat hs (.inr ⟨t, rfl, rfl⟩) rfl rfl rfl rfl (fun fr b r hv hf => by simp only [Rep]; exact variant_get hv hf fun c o p => ⟨rfl, hLt⟩) trivial hLt.symm
      · rw [if_neg hss] at h
        cases hkt : keyTree env (env t).key with
        | none => rw [hkt] at h; cases h
        | some ks =>
          obtain ⟨k, s⟩ := ks
          rw [hkt] at h
          simp only [] at h
          cases he : typeTree env allow d (s ++ t :: seen) (env t).elem with
          | none => rw [he] at h; cases h
          | some r =>
            obtain ⟨e, se⟩ := r
            rw [he] at h
            cases h
            obtain ⟨d', rfl⟩ : ∃ d', d = d' + 1 := by
              cases d with
              | zero => cases he
              | succ d' => exact ⟨d', rfl⟩
            have hs1 : SeenOK (stack ++ [{ type := .map, rtype := some t, size := (env t).size, mapValueSize := (env (env t).elem).size, mapValueTyp := some (env t).elem, faststr := canUseAssignFaststr env t, typ := some t }]) (t :: seen) := hs.push' rfl
            obtain ⟨kroot, hka, hkr, hks⟩ := key_built (x := x) (opts := opts) (d := d') hkt hs1
            have hks' : SeenOK (stack ++ [{ type := .map, rtype := some t, size := (env t).size, mapValueSize := (env (env t).elem).size, mapValueTyp := some (env t).elem, faststr := canUseAssignFaststr env t, typ := some t }] ++
                [{ kroot with parent := some stack.length }]) (s ++ t :: seen) := hks.congr (by simp)
            obtain ⟨croot, ctl, hb⟩ := ih _ _ _ _ _ he hks'
            refine ⟨{ type := .map, rtype := some t, size := (env t).size, mapValueSize := (env (env t).elem).size, mapValueTyp := some (env t).elem, faststr := canUseAssignFaststr env t, typ := some t },
              { kroot with parent := some stack.length } :: { croot with parent := some stack.length } :: ctl, ?_⟩
            have hap : appendType env x.W opts (d' + 1 + 1) stack (some t) = .ok (stack ++ { type := .map, rtype := some t, size := (env t).size, mapValueSize := (env (env t).elem).size, mapValueTyp := some (env t).elem, faststr := canUseAssignFaststr env t, typ := some t } ::
                { kroot with parent := some stack.length } :: { croot with parent := some stack.length } :: ctl) := by
              rw [appendType]
              simp only [if_neg h1, if_neg h2, hk, hfind, if_neg hss, hka, linkParent]
              rw [modify_at _ _ _ _ (by simp)]
              simp only [hb.app]
              rw [modify_at _ _ _ _ rfl]
              simp
            rw [hap]
            have hlen := hb.len
            have hl2 : (stack ++ [({ type := .map, rtype := some t, size := (env t).size, mapValueSize := (env (env t).elem).size, mapValueTyp := some (env t).elem, faststr := canUseAssignFaststr env t, typ := some t } : Frame)] ++
                [{ kroot with parent := some stack.length }]).length = stack.length + 2 := by simp
            refine ⟨rfl, by simp only [List.length_cons, Ty.width]; omega, rfl, rfl, rfl, ?_, ?_, hb.ok, hLt.symm⟩
            · intro fr r hv hf hat
              obtain ⟨a1, hat⟩ := hat.cons
              obtain ⟨a2, a3⟩ := hat.cons
              refine ⟨variant_get hv hf fun c o p => ⟨rfl, hLt, hb.size.symm, canUse_le⟩, ⟨_, a1, rfl, hkr _ ⟨kroot.cap, kroot.offset, _, rfl⟩⟩, ⟨_, a2, rfl, hb.offset⟩, ?_⟩
              have := hb.rep fr _ ⟨croot.cap, croot.offset, some stack.length, rfl⟩ (by rw [hl2]; exact a2) (by rw [hl2]; exact a3)
              rw [hl2] at this; exact this
            · refine hb.seen.congr ?_
              simp
    case struct =>
      by_cases hfe : (env t).fields = []
      · rw [if_pos hfe] at h
        cases h
        refine ⟨{ type := .emptyStruct, size := (env t).size, typ := some t }, [], ?_⟩
        simp only [appendType, if_neg h1, if_neg h2, hk, if_pos hfe]
        exact flat .emptyStruct _ rfl rfl rfl rfl rfl (hLt.1 hfe) (fun fr b h => h) trivial (hLt.1 hfe).symm
      · rw [if_neg hfe] at h
        cases hft : fieldTrees (typeTree env allow d) allow (t :: seen) (env t).fields with
        | none => rw [hft] at h; cases h
        | some r =>
          obtain ⟨fts, sf⟩ := r
          rw [hft] at h
          cases h
          obtain ⟨tbl, new, k1, k2, k3, k4, k5, -⟩ := built_fields (x := x) (env := env) (opts := opts) (size := (env t).size) hopt
            (rec' := fun s t => appendType env x.W opts d s (some t)) (fun seen t ty seen' stack h hs => ih seen t ty seen' stack h hs)
            (env t).fields (t :: seen) fts sf stack { type := .struct, rtype := some t, size := (env t).size, typ := some t } [] hft (hs.push' rfl) hLt.2
          refine ⟨{ type := .struct, rtype := some t, size := (env t).size, fields := [] ++ tbl, typ := some t }, [] ++ new, ?_⟩
          have hap : appendType env x.W opts (d + 1) stack (some t) = .ok (stack ++ { type := .struct, rtype := some t, size := (env t).size, fields := [] ++ tbl, typ := some t } :: ([] ++ new)) := by
            rw [appendType]
            simp only [if_neg h1, if_neg h2, hk, if_neg hfe]
            exact k1
          rw [hap]
          refine ⟨rfl, by simp only [Ty.width, List.nil_append]; rw [k2], rfl, rfl, rfl, ?_, k4, k5, rfl⟩
          intro fr r hv hf hat
          simp only [Rep]
          refine variant_get hv hf fun c o p => ⟨rfl, rfl, ?_⟩
          exact k3 fr hat
    case pointer =>
      by_cases hrc : (isStruct1 (env (env t).elem) && seen.contains (env t).elem) = true
      · rw [if_pos hrc] at h; cases h
      rw [if_neg hrc] at h
      have hfind : (if (env (env t).elem).kind = .struct ∧ 0 < (env (env t).elem).size then findRType (env t).elem stack else none) = none := by
        by_cases hc : (env (env t).elem).kind = .struct ∧ 0 < (env (env t).elem).size
        · rw [if_pos hc]
          refine hs.find ?_
          simp only [isStruct1, hc.1, hc.2, and_self, decide_true, Bool.true_and, Bool.not_eq_true] at hrc
          exact hrc
        · rw [if_neg hc]
      cases he : typeTree env allow d seen (env t).elem with
      | none => rw [he] at h; cases h
      | some r =>
        obtain ⟨e, se⟩ := r
        rw [he] at h
        cases h
        obtain ⟨croot, ctl, hb⟩ := ih _ _ _ _ (stack ++ [{ type := .ptr, size := (env t).size, typ := some t }]) he (hs.push rfl)
        refine ⟨{ type := .ptr, size := (env t).size, typ := some t }, { croot with parent := some stack.length } :: ctl, ?_⟩
        have hap : appendType env x.W opts (d + 1) stack (some t) = linkParent stack.length (stack.length + 1)
            (appendType env x.W opts d (stack ++ [{ type := .ptr, size := (env t).size, typ := some t }]) (some (env t).elem)) := by
          rw [appendType]
          simp only [if_neg h1, if_neg h2, hk, hfind]
        rw [hap, link_eq]
        refine built_elem (ty := .ptr e) hb (fun f => { f with parent := some stack.length }) ⟨croot.cap, croot.offset, _, rfl⟩ rfl rfl rfl rfl
          (fun fr b r hbeq hv hf hc hre => ?_) (fun h => h) (by simp only [Ty.size]; rw [hLt])
        subst hbeq
        exact ⟨variant_get hv hf fun c o p => ⟨rfl, hLt⟩, ⟨_, hc, rfl, hb.offset⟩, hre⟩
    case other => cases h

end Verif.Proof.Types

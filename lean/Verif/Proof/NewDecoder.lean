import Verif.Proof.TypeGraph
/-!
# When `NewDecoder` succeeds, fails and returns at all
-/
namespace Verif.Proof.TypeGraph
open Verif.Model Verif.Spec Verif.Proof.Append

/-- Some frame has the given type as `RType`. -/
def HasR (s : List Frame) (e : TypeId) : Prop := ∃ (i : Nat) (f : Frame), s[i]? = some f ∧ f.rtype = some e

theorem HasR.ext {s s' : List Frame} {e : TypeId} (h : Ext' s s') : HasR s e → HasR s' e
  | ⟨i, f, h1, h2⟩ => by
    obtain ⟨f', k1, -, k2, -⟩ := h.keep i f h1
    exact ⟨i, f', k1, k2.trans h2⟩

theorem hasR_modify {s : List Frame} {i : Nat} {g : Frame → Frame} (hg : ∀ f, (g f).rtype = f.rtype) {e : TypeId} : HasR (s.modify i g) e ↔ HasR s e := by
  constructor
  · rintro ⟨j, f, h1, h2⟩
    rw [List.getElem?_modify] at h1
    cases hs : s[j]? with
    | none => rw [hs] at h1; cases h1
    | some f0 =>
      rw [hs] at h1
      refine ⟨j, f0, hs, ?_⟩
      by_cases hij : i = j <;> simp [hij] at h1 <;> subst h1
      · rw [hg] at h2; exact h2
      · exact h2
  · rintro ⟨j, f, h1, h2⟩
    refine ⟨j, if i = j then g f else f, by rw [List.getElem?_modify, h1]; by_cases h : i = j <;> simp [h], ?_⟩
    split
    · rw [hg]; exact h2
    · exact h2

theorem hasR_push {s : List Frame} {f : Frame} {e : TypeId} : HasR (s ++ [f]) e ↔ HasR s e ∨ f.rtype = some e := by
  constructor
  · rintro ⟨j, f', h1, h2⟩
    rcases Nat.lt_or_ge j s.length with hj | hj
    · rw [List.getElem?_append_left hj] at h1; exact .inl ⟨j, f', h1, h2⟩
    · rw [List.getElem?_append_right hj] at h1
      have : j - s.length = 0 := by
        have := (List.getElem?_eq_some_iff.1 h1).1
        simp at this; omega
      rw [this] at h1
      simp at h1; subst h1; exact .inr h2
  · rintro (⟨j, f', h1, h2⟩ | h)
    · exact ⟨j, f', by rw [List.getElem?_append_left (List.getElem?_eq_some_iff.1 h1).1]; exact h1, h2⟩
    · exact ⟨s.length, f, by simp, h⟩

theorem hasR_mark {s : List Frame} {j : Nat} {e : TypeId} : HasR (markRecur s j) e ↔ HasR s e := hasR_modify (g := fun f => { f with type := .structRecur }) (fun _ => rfl)

theorem find_some {e : TypeId} : ∀ {s : List Frame} {j : Nat}, findRType e s = some j → HasR s e
  | f :: fs, j, h => by
    simp only [findRType] at h
    split at h
    · rename_i hf; exact ⟨0, f, rfl, hf⟩
    · simp only [Option.map_eq_some_iff] at h
      obtain ⟨i, hi, -⟩ := h
      obtain ⟨k, f', h1, h2⟩ := find_some hi
      exact ⟨k + 1, f', h1, h2⟩

theorem find_none {e : TypeId} : ∀ {s : List Frame}, findRType e s = none → ¬ HasR s e
  | [], _, ⟨i, f, h, _⟩ => by simp at h
  | f :: fs, h, ⟨i, f', h1, h2⟩ => by
    simp only [findRType] at h
    split at h
    · cases h
    · rename_i hf
      rw [Option.map_eq_none_iff] at h
      cases i with
      | zero => simp only [List.getElem?_cons_zero, Option.some.injEq] at h1; subst h1; exact hf h2
      | succ i => exact find_none h ⟨i, f', by simpa using h1, h2⟩

theorem post_ok {i : Nat} {g : Frame → Frame} {r : AppendRes} {s : List Frame} (h : post i g r = .ok s) : ∃ s1, r = .ok s1 ∧ s = s1.modify i g := by
  cases r <;> simp [post] at h
  exact ⟨_, rfl, h.symm⟩

theorem post_err {i : Nat} {g : Frame → Frame} {r : AppendRes} {e : Err} (h : post i g r = .err e) : r = .err e := by cases r <;> simp [post] at h; exact h ▸ rfl
theorem post_panic {i : Nat} {g : Frame → Frame} {r : AppendRes} (h : post i g r = .panic) : r = .panic := by cases r <;> simp [post] at h; rfl
theorem post_fuel {i : Nat} {g : Frame → Frame} {r : AppendRes} (h : post i g r = .fuel) : r = .fuel := by cases r <;> simp [post] at h; rfl

/-- Frame `p` exists and its type does not support the `string` option. -/
def Hd (s : List Frame) (p : Nat) : Prop := ∃ f : Frame, s[p]? = some f ∧ retagString f.type = none

theorem Hd.ext {s s' : List Frame} {p : Nat} (h : Ext' s s') : Hd s p → Hd s' p
  | ⟨f, h1, h2⟩ => by
    obtain ⟨f', k1, -, -, -, -, -, k2⟩ := h.keep p f h1
    refine ⟨f', k1, ?_⟩
    rcases k2 with k2 | k2 <;> rw [k2]
    · exact h2
    · rfl

theorem Hd.modify {s : List Frame} {p i : Nat} {g : Frame → Frame} (hg : i = p → ∀ f, (g f).type = f.type) : Hd s p → Hd (s.modify i g) p
  | ⟨f, h1, h2⟩ => by
    refine ⟨if i = p then g f else f, by rw [List.getElem?_modify, h1]; by_cases h : i = p <;> simp [h], ?_⟩
    split
    · rename_i h; rw [hg h]; exact h2
    · exact h2

theorem Hd.lt {s : List Frame} {p : Nat} : Hd s p → p < s.length
  | ⟨_, h1, _⟩ => (List.getElem?_eq_some_iff.1 h1).1

theorem fields_hd {rec' : List Frame → TypeId → AppendRes} {opts : Option InitOptions} (hrec : ∀ s t s', rec' s t = .ok s' → Ext' s s' ∧ s.length < s'.length) {p : Nat} :
    ∀ (fs : List FieldInfo) (s s' : List Frame), Hd s p → appendFields rec' opts p fs s = .ok s' → Hd s' p := by
  intro fs
  induction fs with
  | nil => intro s s' h hr; cases hr; exact h
  | cons f fs ih =>
    intro s s' h hr
    simp only [appendFields] at hr
    split at hr
    · exact ih _ _ h hr
    · split at hr
      · rename_i s1 hs1
        have hlt := h.lt
        have h2 : ∀ name, Hd ((s1.modify p fun q => { q with fields := q.fields ++ [(name, s.length)] }).modify s.length fun g => { g with offset := f.offset, parent := some p }) p :=
          fun name => Hd.modify (fun hi => by omega) (Hd.modify (g := fun q => { q with fields := q.fields ++ [(name, s.length)] }) (fun _ _ => rfl) (h.ext (hrec _ _ _ hs1).1))
        split at hr
        · split at hr
          · cases hr
          · split at hr
            · exact ih _ _ (Hd.modify (fun hi => by omega) (h2 _)) hr
            · split at hr
              · cases hr
              · split at hr
                · cases hr
                · exact ih _ _ (h2 _) hr
        · exact ih _ _ (h2 _) hr
      · rename_i hne; exact absurd hr (hne s')

/-- The first new frame tells whether the `string` option is supported. -/
theorem head_frame {env : TypeEnv} {W : Nat} {opts : Option InitOptions} : ∀ {n : Nat} {s : List Frame} {t : TypeId} {s' : List Frame}, appendType env W opts n s (some t) = .ok s' →
    ∃ f, s'[s.length]? = some f ∧ (retagString f.type).isSome = plainScalar (env t) := by
  intro n s t s' h
  cases n with
  | zero => simp [appendType] at h
  | succ n =>
  have keep : ∀ {f : Frame} {s1 : List Frame}, Ext' (s ++ [f]) s1 → retagString f.type = none → ∃ f', s1[s.length]? = some f' ∧ (retagString f'.type).isSome = false := by
    intro f s1 he hf
    obtain ⟨f', h1, -, -, -, -, -, h2⟩ := he.keep s.length f (by simp)
    refine ⟨f', h1, ?_⟩
    rcases h2 with h2 | h2 <;> rw [h2]
    · rw [hf]; rfl
    · rfl
  have mod : ∀ {s1 : List Frame} {i : Nat} {g : Frame → Frame} {f' : Frame}, s.length ≠ i → s1[s.length]? = some f' → (s1.modify i g)[s.length]? = some f' := by
    intro s1 i g f' hi h1
    rw [List.getElem?_modify, h1]; simp [Ne.symm hi]
  cases node env W opts t with
  | leaf f hc hk hi hb hr hs hh => rw [hh] at h; cases h; exact ⟨f, by simp, hs⟩
  | bad hb hh => rw [hh] at h; cases h
  | iface hb hh => rw [hh] at h; cases h
  | elem f g hc hk hi hb hf hg hs hp hns hnt hh =>
    rw [hh] at h
    obtain ⟨s1, h1, rfl⟩ := post_ok h
    obtain ⟨f', k1, k2⟩ := keep (append_ext _ _ _ _ _ _ _ h1).1 hs
    exact ⟨f', mod (by omega) k1, k2.trans hp.symm⟩
  | tied f f' g hc ht hns hk hi hb hf hf' hg hs hs' hp hh =>
    rw [hh] at h
    split at h
    · cases h
      rename_i j _
      refine ⟨f' j, by simp [markRecur], ?_⟩
      rw [hs' j, hp]; rfl
    · obtain ⟨s1, h1, rfl⟩ := post_ok h
      obtain ⟨f', k1, k2⟩ := keep (append_ext _ _ _ _ _ _ _ h1).1 hs
      exact ⟨f', mod (by omega) k1, k2.trans hp.symm⟩
  | map f f' g b hc ht hk hi hb hf hf' hg hs hs' hp hh =>
    rw [hh] at h
    split at h
    · rename_i j _
      obtain ⟨s1, h1, rfl⟩ := post_ok h
      obtain ⟨f'', k1, -, -, -, -, -, k2⟩ := (append_ext _ _ _ _ _ _ _ h1).1.keep s.length (f' j) (by simp [markRecur])
      refine ⟨f'', mod (by omega) k1, ?_⟩
      rw [hp]
      rcases k2 with k2 | k2 <;> rw [k2]
      · rw [hs']; rfl
      · rfl
    · split at h
      · rename_i s1 h1
        obtain ⟨s2, h2, rfl⟩ := post_ok h1
        obtain ⟨s3, h3, rfl⟩ := post_ok h
        have e1 := (append_ext _ _ _ _ _ _ _ h2)
        obtain ⟨f', k1, k2⟩ := keep e1.1 hs
        have hl := e1.2
        simp only [List.length_append, List.length_cons, List.length_nil] at hl
        obtain ⟨f'', m1, -, -, -, -, -, m2⟩ := (append_ext _ _ _ _ _ _ _ h3).1.keep s.length f' (mod (by omega) k1)
        refine ⟨f'', mod (by rw [List.length_modify]; omega) m1, ?_⟩
        rw [hp]
        rcases m2 with m2 | m2 <;> rw [m2]
        · exact k2
        · rfl
      · rename_i hne; exact absurd h (hne s')
  | struct f hu hk hf hs hp hh =>
    rw [hh] at h
    obtain ⟨f', h1, h2⟩ := fields_hd (fun a b c hc => append_ext _ _ _ _ a _ c hc) _ _ _ (p := s.length) ⟨f, by simp, hs⟩ h
    exact ⟨f', h1, by rw [h2, hp]; rfl⟩

/-! ## The outcome -/

/-- One field that is not ignored. -/
theorem fields_cons {rec' : List Frame → TypeId → AppendRes} {opts : Option InitOptions} {p : Nat} {f : FieldInfo} {fs : List FieldInfo} {s s1 : List Frame} {name : Bytes} {str pl : Bool}
    (ht : parseTag f.name f.tag = some (name, str)) (hr : rec' s f.type = .ok s1) (hh : ∃ g : Frame, s1[s.length]? = some g ∧ (retagString g.type).isSome = pl) (hp : p < s.length) (hl : s.length < s1.length) :
    ∃ s2 : List Frame, (∀ e, HasR s2 e ↔ HasR s1 e) ∧ s2.length = s1.length ∧
      appendFields rec' opts p (f :: fs) s = if str = true ∧ pl = false then (match opts with
        | none => .panic
        | some o => if o.disallowStringTagOptOnUnsupportedTypes then .err .stringTag else appendFields rec' opts p fs s2) else appendFields rec' opts p fs s2 := by
  obtain ⟨g, hg, hpl⟩ := hh
  have hR : ∀ e, HasR ((s1.modify p fun q => { q with fields := q.fields ++ [(name, s.length)] }).modify s.length fun g => { g with offset := f.offset, parent := some p }) e ↔ HasR s1 e := fun e =>
    (hasR_modify (g := fun g => { g with offset := f.offset, parent := some p }) (fun _ => rfl)).trans (hasR_modify (g := fun q => { q with fields := q.fields ++ [(name, s.length)] }) (fun _ => rfl))
  have hget : ((s1.modify p fun q => { q with fields := q.fields ++ [(name, s.length)] }).modify s.length fun g => { g with offset := f.offset, parent := some p })[s.length]? =
      some { g with offset := f.offset, parent := some p } := by
    rw [List.getElem?_modify, List.getElem?_modify, hg]
    have : p ≠ s.length := by omega
    simp [this]
  simp only [appendFields, ht, hr]
  cases str with
  | false => exact ⟨_, hR, by simp, by simp⟩
  | true =>
    cases hrt : retagString g.type with
    | some t' =>
      have hpl : pl = true := by rw [← hpl, hrt]; rfl
      refine ⟨_, fun e => (hasR_modify (g := fun g => { g with type := t' }) (i := s.length) (fun _ => rfl)).trans (hR e), by simp, ?_⟩
      simp only [if_true, hget, hrt, hpl, Bool.true_eq_false, and_false, if_false]
    | none =>
      have hpl : pl = false := by rw [← hpl, hrt]; rfl
      refine ⟨_, hR, by simp, ?_⟩
      simp only [if_true, hget, hrt, hpl, and_self]
      rfl

/-- What a successful call for type `t` on stack `s` establishes: a set of types that are all supported and closed up to what was on the stack. -/
structure Good (env : TypeEnv) (opts : Option InitOptions) (s s' : List Frame) (R : TypeId → Prop) (G : TypeId → Prop) : Prop where
  reach : ∀ g, G g → R g
  kind : ∀ g, G g → ¬ BadKind env g
  iface : ∀ g, G g → ¬ BadInterface env g
  tag : ∀ g, G g → BadTag env g → ∃ o, opts = some o ∧ o.disallowStringTagOptOnUnsupportedTypes = false
  closed : ∀ g c, G g → Child env g c → G c ∨ HasR s c
  new : ∀ e, HasR s' e → HasR s e ∨ G e

/-- What an unsuccessful call shows. -/
def Fails (env : TypeEnv) (opts : Option InitOptions) (R : TypeId → Prop) : AppendRes → Prop
  | .err e => (∃ c, R c ∧ BadKind env c ∧ e = .unsupportedType c) ∨ e = .stringTag ∧ (∃ o, opts = some o ∧ o.disallowStringTagOptOnUnsupportedTypes = true) ∧ ∃ c, R c ∧ BadTag env c
  | .panic => (∃ c, R c ∧ BadInterface env c) ∨ opts = none ∧ ∃ c, R c ∧ BadTag env c
  | _ => True

theorem Fails.mono {env : TypeEnv} {opts : Option InitOptions} {R R' : TypeId → Prop} (h : ∀ c, R c → R' c) : ∀ {r : AppendRes}, Fails env opts R r → Fails env opts R' r
  | .err e, hf => by
    rcases hf with ⟨c, h1, h2⟩ | ⟨h1, h2, c, h3, h4⟩
    · exact .inl ⟨c, h c h1, h2⟩
    · exact .inr ⟨h1, h2, c, h c h3, h4⟩
  | .panic, hf => by
    rcases hf with ⟨c, h1, h2⟩ | ⟨h1, c, h3, h4⟩
    · exact .inl ⟨c, h c h1, h2⟩
    · exact .inr ⟨h1, c, h c h3, h4⟩
  | .ok _, _ => trivial
  | .fuel, _ => trivial

theorem Fails.post {env : TypeEnv} {opts : Option InitOptions} {R : TypeId → Prop} {i : Nat} {g : Frame → Frame} {r : AppendRes} (h : Fails env opts R r) : Fails env opts R (post i g r) := by
  cases r <;> first | exact h | trivial

/-- The outcome of a call. -/
def Call (env : TypeEnv) (opts : Option InitOptions) (s : List Frame) (t : TypeId) (r : AppendRes) : Prop :=
  Fails env opts (Reach env t) r ∧ ∀ s', r = .ok s' → ∃ G, G t ∧ Good env opts s s' (Reach env t) G

theorem reach_trans {env : TypeEnv} {a b c : TypeId} (h : Reach env a b) (h' : Reach env b c) : Reach env a c := by
  induction h' with
  | self => exact h
  | step _ hc ih => exact .step ih hc

theorem reach_child {env : TypeEnv} {a b c : TypeId} (h : Child env a b) (h' : Reach env b c) : Reach env a c := reach_trans (.step .self h) h'

theorem fields_call {env : TypeEnv} {opts : Option InitOptions} {rec' : List Frame → TypeId → AppendRes} (hrec : ∀ s t, Call env opts s t (rec' s t))
    (hlen : ∀ s t s', rec' s t = .ok s' → s.length < s'.length) (hhead : ∀ s t s', rec' s t = .ok s' → ∃ g : Frame, s'[s.length]? = some g ∧ (retagString g.type).isSome = plainScalar (env t)) {t : TypeId} {p : Nat}
    (hu : TypeInfo.unmarshaler (env t) = false) (hk : (env t).kind = .struct) : ∀ (fs : List FieldInfo) (s : List Frame), (∀ f ∈ fs, f ∈ (env t).fields) → p < s.length →
    Fails env opts (Reach env t) (appendFields rec' opts p fs s) ∧ ∀ s', appendFields rec' opts p fs s = .ok s' →
      ∃ G, Good env opts s s' (Reach env t) G ∧ (∀ f ∈ fs, ∀ r, TagMeans f.name f.tag (some r) → G f.type) ∧
        (∀ f ∈ fs, ∀ name, TagMeans f.name f.tag (some (name, true)) → plainScalar (env f.type) = false → ∃ o, opts = some o ∧ o.disallowStringTagOptOnUnsupportedTypes = false)
  | [], s, hfs, hp => by
    refine ⟨trivial, fun s' h => ?_⟩
    cases h
    exact ⟨fun _ => False, ⟨by simp, by simp, by simp, by simp, by simp, fun e he => .inl he⟩, by simp, by simp⟩
  | f :: fs, s, hfs, hp => by
    have ih := fields_call hrec hlen hhead (p := p) hu hk fs
    have hfs' : ∀ g ∈ fs, g ∈ (env t).fields := fun g hg => hfs g (List.mem_cons_of_mem _ hg)
    cases ht : parseTag f.name f.tag with
    | none =>
      have hno : ∀ r, ¬ TagMeans f.name f.tag (some r) := fun r hr => by rw [tag_iff, ht] at hr; cases hr
      simp only [appendFields, ht]
      obtain ⟨h1, h2⟩ := ih s hfs' hp
      refine ⟨h1, fun s' hs' => ?_⟩
      obtain ⟨G, g1, g2, g3⟩ := h2 s' hs'
      refine ⟨G, g1, ?_, ?_⟩
      · intro g hg r hr
        rcases List.mem_cons.1 hg with rfl | hg
        · exact (hno _ hr).elim
        · exact g2 g hg r hr
      · intro g hg name hr
        rcases List.mem_cons.1 hg with rfl | hg
        · exact (hno _ hr).elim
        · exact g3 g hg name hr
    | some r =>
      obtain ⟨name, str⟩ := r
      have htm : TagMeans f.name f.tag (some (name, str)) := tag_iff.2 ht
      have hch : Child env t f.type := .field hu hk (hfs f List.mem_cons_self) htm
      obtain ⟨c1, c2⟩ := hrec s f.type
      cases hr : rec' s f.type with
      | err e => simp only [appendFields, ht, hr]; rw [hr] at c1; exact ⟨c1.mono fun c => reach_child hch, fun s' h => by cases h⟩
      | panic => simp only [appendFields, ht, hr]; rw [hr] at c1; exact ⟨c1.mono fun c => reach_child hch, fun s' h => by cases h⟩
      | fuel => simp only [appendFields, ht, hr]; exact ⟨trivial, fun s' h => by cases h⟩
      | ok s1 =>
        have hl := hlen _ _ _ hr
        obtain ⟨s2, k1, k2, k3⟩ := fields_cons (opts := opts) (fs := fs) ht hr (hhead _ _ _ hr) hp hl
        obtain ⟨G1, g1, gg⟩ := c2 s1 hr
        obtain ⟨h1, h2⟩ := ih s2 hfs' (by omega)
        have hbad : str = true → plainScalar (env f.type) = false → BadTag env t := fun e1 e2 => ⟨hu, hk, f, hfs f List.mem_cons_self, name, e1 ▸ htm, e2⟩
        have rest : (str = true → plainScalar (env f.type) = false → ∃ o, opts = some o ∧ o.disallowStringTagOptOnUnsupportedTypes = false) → ∀ s', appendFields rec' opts p fs s2 = .ok s' →
            ∃ G, Good env opts s s' (Reach env t) G ∧ (∀ g ∈ f :: fs, ∀ r, TagMeans g.name g.tag (some r) → G g.type) ∧
            (∀ g ∈ f :: fs, ∀ name, TagMeans g.name g.tag (some (name, true)) → plainScalar (env g.type) = false → ∃ o, opts = some o ∧ o.disallowStringTagOptOnUnsupportedTypes = false) := by
          intro hx s' hs'
          obtain ⟨G2, m1, m2, m3⟩ := h2 s' hs'
          refine ⟨fun g => G1 g ∨ G2 g, ⟨?_, ?_, ?_, ?_, ?_, ?_⟩, ?_, ?_⟩
          · rintro g (hg | hg)
            · exact reach_child hch (gg.reach g hg)
            · exact m1.reach g hg
          · rintro g (hg | hg)
            · exact gg.kind g hg
            · exact m1.kind g hg
          · rintro g (hg | hg)
            · exact gg.iface g hg
            · exact m1.iface g hg
          · rintro g (hg | hg)
            · exact gg.tag g hg
            · exact m1.tag g hg
          · rintro g c (hg | hg) hc
            · rcases gg.closed g c hg hc with h | h
              · exact .inl (.inl h)
              · exact .inr h
            · rcases m1.closed g c hg hc with h | h
              · exact .inl (.inr h)
              · rw [k1] at h
                rcases gg.new c h with h | h
                · exact .inr h
                · exact .inl (.inl h)
          · intro e he
            rcases m1.new e he with h | h
            · rw [k1] at h
              rcases gg.new e h with h | h
              · exact .inl h
              · exact .inr (.inl h)
            · exact .inr (.inr h)
          · intro g hg r hr
            rcases List.mem_cons.1 hg with rfl | hg
            · exact .inl g1
            · exact .inr (m2 g hg r hr)
          · intro g hg name' htr hpl
            rcases List.mem_cons.1 hg with h | hg
            · subst h
              have := tag_unique htm htr
              cases this
              exact hx rfl hpl
            · exact m3 g hg name' htr hpl
        rw [k3]
        by_cases hc : str = true ∧ plainScalar (env f.type) = false
        · rw [if_pos hc]
          cases ho : opts with
          | none => exact ⟨.inr ⟨rfl, t, .self, hbad hc.1 hc.2⟩, fun s' h => by cases h⟩
          | some o =>
            by_cases hd : o.disallowStringTagOptOnUnsupportedTypes = true
            · simp only [hd, if_true]
              exact ⟨.inr ⟨rfl, ⟨o, rfl, hd⟩, t, .self, hbad hc.1 hc.2⟩, fun s' h => by cases h⟩
            · simp only [hd]
              subst ho
              exact ⟨h1, rest fun _ _ => ⟨o, rfl, by simpa using hd⟩⟩
        · rw [if_neg hc]
          exact ⟨h1, rest fun e1 e2 => (hc ⟨e1, e2⟩).elim⟩

theorem append_call {env : TypeEnv} {W : Nat} {opts : Option InitOptions} : ∀ (n : Nat) (s : List Frame) (t : TypeId), Call env opts s t (appendType env W opts n s (some t)) := by
  intro n
  induction n with
  | zero => intro s t; exact ⟨trivial, fun s' h => by simp [appendType] at h⟩
  | succ n ih =>
    intro s t
    -- the element types of arrays, slices and pointers
    have one : ∀ (f : Frame) (g : Frame → Frame) (i : Nat), (∀ c, Child env t c ↔ c = (env t).elem) → ¬ BadKind env t → ¬ BadInterface env t → ¬ BadTag env t → f.rtype = none → (∀ f, (g f).rtype = f.rtype) →
        Call env opts s t (post i g (appendType env W opts n (s ++ [f]) (some (env t).elem))) := by
      intro f g i hc hk hi hb hf hg
      have hch : Child env t (env t).elem := (hc _).2 rfl
      obtain ⟨c1, c2⟩ := ih (s ++ [f]) (env t).elem
      refine ⟨(c1.mono fun c => reach_child hch).post, fun s' h => ?_⟩
      obtain ⟨s1, h1, rfl⟩ := post_ok h
      obtain ⟨G, g1, gg⟩ := c2 s1 h1
      refine ⟨fun g => g = t ∨ G g, .inl rfl, ⟨?_, ?_, ?_, ?_, ?_, ?_⟩⟩
      · rintro g (rfl | hg)
        · exact .self
        · exact reach_child hch (gg.reach g hg)
      · rintro g (rfl | hg)
        · exact hk
        · exact gg.kind g hg
      · rintro g (rfl | hg)
        · exact hi
        · exact gg.iface g hg
      · rintro g (rfl | hg) hb'
        · exact (hb hb').elim
        · exact gg.tag g hg hb'
      · rintro g c (rfl | hg) hcc
        · rw [hc] at hcc; subst hcc; exact .inl (.inr g1)
        · rcases gg.closed g c hg hcc with h | h
          · exact .inl (.inr h)
          · rw [hasR_push, hf] at h
            rcases h with h | h
            · exact .inr h
            · cases h
      · intro e he
        rw [hasR_modify hg] at he
        rcases gg.new e he with h | h
        · rw [hasR_push, hf] at h
          rcases h with h | h
          · exact .inl h
          · cases h
        · exact .inr (.inr h)
    cases node env W opts t with
    | leaf f hc hk hi hb hr hs hh =>
      rw [hh]
      refine ⟨trivial, fun s' h => ?_⟩
      cases h
      refine ⟨fun g => g = t, rfl, ⟨?_, ?_, ?_, ?_, ?_, ?_⟩⟩
      · rintro g rfl; exact .self
      · rintro g rfl; exact hk
      · rintro g rfl; exact hi
      · rintro g rfl h; exact (hb h).elim
      · rintro g c rfl h; exact (hc c h).elim
      · intro e he
        rw [hasR_push] at he
        rcases he with he | he
        · exact .inl he
        · rcases hr with hr | hr <;> rw [hr] at he <;> cases he
          exact .inr rfl
    | bad hb hh => rw [hh]; exact ⟨.inl ⟨t, .self, hb, rfl⟩, fun s' h => by cases h⟩
    | iface hb hh => rw [hh]; exact ⟨.inl ⟨t, .self, hb⟩, fun s' h => by cases h⟩
    | elem f g hc hk hi hb hf hg hs hp hns hnt hh => rw [hh]; exact one f (g s.length) _ hc hk hi hb hf (hg s.length)
    | tied f f' g hc ht hns hk hi hb hf hf' hg hs hs' hp hh =>
      rw [hh]
      split
      · rename_i j hj
        refine ⟨trivial, fun s' h => ?_⟩
        cases h
        refine ⟨fun g => g = t, rfl, ⟨?_, ?_, ?_, ?_, ?_, ?_⟩⟩
        · rintro g rfl; exact .self
        · rintro g rfl; exact hk
        · rintro g rfl; exact hi
        · rintro g rfl h; exact (hb h).elim
        · rintro g c rfl h
          rw [hc] at h; subst h
          exact .inr (find_some hj)
        · intro e he
          rw [hasR_push, hasR_mark, hf'] at he
          rcases he with he | he
          · exact .inl he
          · cases he
      · exact one f (g s.length) _ hc hk hi hb hf (hg s.length)
    | map f f' g b hc ht hk hi hb hf hf' hg hs hs' hp hh =>
      rw [hh]
      have hck : Child env t (env t).key := (hc _).2 (.inl rfl)
      have hce : Child env t (env t).elem := (hc _).2 (.inr rfl)
      split
      · rename_i j hj
        have hj : HasR s (env t).elem := by
          split at hj
          · exact find_some hj
          · cases hj
        obtain ⟨c1, c2⟩ := ih (markRecur s j ++ [f' j]) (env t).key
        refine ⟨(c1.mono fun c => reach_child hck).post, fun s' h => ?_⟩
        obtain ⟨s1, h1, rfl⟩ := post_ok h
        obtain ⟨G, g1, gg⟩ := c2 s1 h1
        refine ⟨fun g => g = t ∨ G g, .inl rfl, ⟨?_, ?_, ?_, ?_, ?_, ?_⟩⟩
        · rintro g (rfl | hg)
          · exact .self
          · exact reach_child hck (gg.reach g hg)
        · rintro g (rfl | hg)
          · exact hk
          · exact gg.kind g hg
        · rintro g (rfl | hg)
          · exact hi
          · exact gg.iface g hg
        · rintro g (rfl | hg) hb'
          · exact (hb hb').elim
          · exact gg.tag g hg hb'
        · rintro g c (rfl | hg) hcc
          · rw [hc] at hcc
            rcases hcc with rfl | rfl
            · exact .inl (.inr g1)
            · exact .inr hj
          · rcases gg.closed g c hg hcc with h | h
            · exact .inl (.inr h)
            · rw [hasR_push, hasR_mark, hf'] at h
              rcases h with h | h
              · exact .inr h
              · cases h
        · intro e he
          rw [hasR_modify (hg s.length)] at he
          rcases gg.new e he with h | h
          · rw [hasR_push, hasR_mark, hf'] at h
            rcases h with h | h
            · exact .inl h
            · cases h
          · exact .inr (.inr h)
      · obtain ⟨c1, c2⟩ := ih (s ++ [f]) (env t).key
        have hF := (c1.mono fun c => reach_child hck).post (i := s.length + 1) (g := g s.length)
        cases hr : post (s.length + 1) (g s.length) (appendType env W opts n (s ++ [f]) (some (env t).key)) with
        | err e => rw [hr] at hF; exact ⟨hF, fun s' h => by cases h⟩
        | panic => rw [hr] at hF; exact ⟨hF, fun s' h => by cases h⟩
        | fuel => exact ⟨trivial, fun s' h => by cases h⟩
        | ok s1 =>
          obtain ⟨s0, h0, rfl⟩ := post_ok hr
          obtain ⟨G1, g1, gg1⟩ := c2 s0 h0
          obtain ⟨d1, d2⟩ := ih (s0.modify (s.length + 1) (g s.length)) (env t).elem
          refine ⟨(d1.mono fun c => reach_child hce).post, fun s' h => ?_⟩
          obtain ⟨s2, h2, rfl⟩ := post_ok h
          obtain ⟨G2, g2, gg2⟩ := d2 s2 h2
          have old : ∀ e, HasR (s0.modify (s.length + 1) (g s.length)) e → HasR s e ∨ e = t ∨ G1 e := by
            intro e he
            rw [hasR_modify (hg s.length)] at he
            rcases gg1.new e he with h | h
            · rw [hasR_push, hf] at h
              rcases h with h | h
              · exact .inl h
              · cases h; exact .inr (.inl rfl)
            · exact .inr (.inr h)
          refine ⟨fun g => g = t ∨ G1 g ∨ G2 g, .inl rfl, ⟨?_, ?_, ?_, ?_, ?_, ?_⟩⟩
          · rintro g (rfl | hg | hg)
            · exact .self
            · exact reach_child hck (gg1.reach g hg)
            · exact reach_child hce (gg2.reach g hg)
          · rintro g (rfl | hg | hg)
            · exact hk
            · exact gg1.kind g hg
            · exact gg2.kind g hg
          · rintro g (rfl | hg | hg)
            · exact hi
            · exact gg1.iface g hg
            · exact gg2.iface g hg
          · rintro g (rfl | hg | hg) hb'
            · exact (hb hb').elim
            · exact gg1.tag g hg hb'
            · exact gg2.tag g hg hb'
          · rintro g c (rfl | hg | hg) hcc
            · rw [hc] at hcc
              rcases hcc with rfl | rfl
              · exact .inl (.inr (.inl g1))
              · exact .inl (.inr (.inr g2))
            · rcases gg1.closed g c hg hcc with h | h
              · exact .inl (.inr (.inl h))
              · rw [hasR_push, hf] at h
                rcases h with h | h
                · exact .inr h
                · cases h; exact .inl (.inl rfl)
            · rcases gg2.closed g c hg hcc with h | h
              · exact .inl (.inr (.inr h))
              · rcases old c h with h | h | h
                · exact .inr h
                · exact .inl (.inl h)
                · exact .inl (.inr (.inl h))
          · intro e he
            rw [hasR_modify (hg s.length)] at he
            rcases gg2.new e he with h | h
            · rcases old e h with h | h | h
              · exact .inl h
              · exact .inr (.inl h)
              · exact .inr (.inr (.inl h))
            · exact .inr (.inr (.inr h))
    | struct f hu hk hf hs hp hh =>
      rw [hh]
      obtain ⟨h1, h2⟩ := fields_call (fun s t => ih s t) (fun s t s' h => (append_ext _ _ _ _ _ _ _ h).2) (fun s t s' h => head_frame h) (p := s.length) hu hk (env t).fields (s ++ [f]) (fun _ h => h) (by simp)
      refine ⟨h1, fun s' h => ?_⟩
      obtain ⟨G, gg, g2, g3⟩ := h2 s' h
      refine ⟨fun g => g = t ∨ G g, .inl rfl, ⟨?_, ?_, ?_, ?_, ?_, ?_⟩⟩
      · rintro g (rfl | hg)
        · exact .self
        · exact gg.reach g hg
      · rintro g (rfl | hg)
        · intro hb; rw [BadKind, hk] at hb; cases hb.2
        · exact gg.kind g hg
      · rintro g (rfl | hg)
        · intro hb; rw [BadInterface, hk] at hb; cases hb.2.1
        · exact gg.iface g hg
      · rintro g (rfl | hg) hb'
        · obtain ⟨-, -, f', m1, name, m2, m3⟩ := hb'
          exact g3 f' m1 name m2 m3
        · exact gg.tag g hg hb'
      · rintro g c (rfl | hg) hcc
        · cases hcc with
          | field _ _ m1 m2 => exact .inl (.inr (g2 _ m1 _ m2))
          | _ => simp_all
        · rcases gg.closed g c hg hcc with h | h
          · exact .inl (.inr h)
          · rw [hasR_push, hf] at h
            rcases h with h | h
            · exact .inr h
            · cases h; exact .inl (.inl rfl)
      · intro e he
        rcases gg.new e he with h | h
        · rw [hasR_push, hf] at h
          rcases h with h | h
          · exact .inl h
          · cases h; exact .inr (.inl rfl)
        · exact .inr (.inr h)

/-! ## Fuel -/

theorem fields_mono {rec1 rec2 : List Frame → TypeId → AppendRes} (h : ∀ s t, rec1 s t ≠ .fuel → rec2 s t = rec1 s t) {opts : Option InitOptions} {p : Nat} :
    ∀ (fs : List FieldInfo) (s : List Frame), appendFields rec1 opts p fs s ≠ .fuel → appendFields rec2 opts p fs s = appendFields rec1 opts p fs s := by
  intro fs
  induction fs with
  | nil => intro s _; rfl
  | cons f fs ih =>
    intro s hs
    simp only [appendFields] at hs ⊢
    cases ht : parseTag f.name f.tag with
    | none => simp only [ht] at hs ⊢; exact ih s hs
    | some r =>
      obtain ⟨name, str⟩ := r
      simp only [ht] at hs ⊢
      have hne : rec1 s f.type ≠ .fuel := fun hc => by rw [hc] at hs; exact hs rfl
      rw [h _ _ hne]
      cases hr : rec1 s f.type with
      | ok s1 =>
        simp only [hr] at hs ⊢
        cases str with
        | false => simp only [Bool.false_eq_true, if_false] at hs ⊢; exact ih _ hs
        | true =>
          simp only [if_true] at hs ⊢
          split
          · rfl
          · rename_i g hg
            simp only [hg] at hs
            split
            · rename_i t' ht'
              simp only [ht'] at hs
              exact ih _ hs
            · rename_i ht'
              simp only [ht'] at hs
              split
              · rfl
              · split
                · rfl
                · rename_i hd
                  simp only [hd] at hs
                  exact ih _ hs
      | _ => rfl

theorem append_mono {env : TypeEnv} {W : Nat} {opts : Option InitOptions} : ∀ (n : Nat) (s : List Frame) (t : Option TypeId), appendType env W opts n s t ≠ .fuel →
    appendType env W opts (n + 1) s t = appendType env W opts n s t := by
  intro n
  induction n with
  | zero => intro s t h; exact (h rfl).elim
  | succ n ih =>
    intro s t h
    cases t with
    | none => rfl
    | some t =>
    have pm : ∀ (i : Nat) (g : Frame → Frame) (s : List Frame) (t : TypeId), post i g (appendType env W opts n s (some t)) ≠ .fuel →
        post i g (appendType env W opts (n + 1) s (some t)) = post i g (appendType env W opts n s (some t)) := by
      intro i g s t h
      rw [ih s (some t) (fun hc => by rw [hc] at h; exact h rfl)]
    cases node env W opts t with
    | leaf f hc hk hi hb hr hs hh => rw [hh, hh]
    | bad hb hh => rw [hh, hh]
    | iface hb hh => rw [hh, hh]
    | elem f g hc hk hi hb hf hg hs hp hns hnt hh => rw [hh] at h; rw [hh, hh]; exact pm _ _ _ _ h
    | tied f f' g hc ht hns hk hi hb hf hf' hg hs hs' hp hh =>
      rw [hh] at h; rw [hh, hh]
      split
      · rfl
      · rename_i hf0; simp only [hf0] at h; exact pm _ _ _ _ h
    | map f f' g b hc ht hk hi hb hf hf' hg hs hs' hp hh =>
      rw [hh] at h; rw [hh, hh]
      cases hf0 : (if b = true then findRType (env t).elem s else none) with
      | some j => simp only [hf0] at h ⊢; exact pm _ _ _ _ h
      | none =>
        simp only [hf0] at h ⊢
        rw [pm _ _ _ _ (fun hc => by rw [hc] at h; exact h rfl)]
        cases hr : post (s.length + 1) (g s.length) (appendType env W opts n (s ++ [f]) (some (env t).key)) with
        | ok s1 => simp only [hr] at h ⊢; exact pm _ _ _ _ h
        | _ => rfl
    | struct f hu hk hf hs hp hh =>
      rw [hh] at h; rw [hh, hh]
      exact fields_mono (fun s t h => ih s (some t) h) _ _ h

theorem append_fuel {env : TypeEnv} {W : Nat} {opts : Option InitOptions} {n : Nat} {s : List Frame} {t : Option TypeId} (h : appendType env W opts n s t ≠ .fuel) :
    ∀ (m : Nat), n ≤ m → appendType env W opts m s t = appendType env W opts n s t := by
  intro m hm
  induction hm with
  | refl => rfl
  | step _ ih => rw [append_mono _ _ _ (by rw [ih]; exact h), ih]

theorem fields_ends {env : TypeEnv} {rec' : List Frame → TypeId → AppendRes} {opts : Option InitOptions} {p : Nat} {b : List Frame}
    (hext : ∀ s t s', rec' s t = .ok s' → Ext' s s' ∧ s.length < s'.length) (hhead : ∀ s t s', rec' s t = .ok s' → ∃ g : Frame, s'[s.length]? = some g ∧ (retagString g.type).isSome = plainScalar (env t)) :
    ∀ (fs : List FieldInfo) (s : List Frame), p < s.length → (∀ e, HasR b e → HasR s e) →
      (∀ f ∈ fs, ∀ r, TagMeans f.name f.tag (some r) → ∀ s, (∀ e, HasR b e → HasR s e) → rec' s f.type ≠ .fuel) → appendFields rec' opts p fs s ≠ .fuel := by
  intro fs
  induction fs with
  | nil => intro s _ _ _; simp [appendFields]
  | cons f fs ih =>
    intro s hp hb h
    have ih' := fun s hp hb => ih s hp hb (fun g hg => h g (List.mem_cons_of_mem _ hg))
    cases ht : parseTag f.name f.tag with
    | none => simp only [appendFields, ht]; exact ih' s hp hb
    | some r =>
      obtain ⟨name, str⟩ := r
      have hne := h f List.mem_cons_self _ (tag_iff.2 ht) s hb
      cases hr : rec' s f.type with
      | ok s1 =>
        obtain ⟨e1, e2⟩ := hext _ _ _ hr
        obtain ⟨s2, k1, k2, k3⟩ := fields_cons (opts := opts) (fs := fs) ht hr (hhead _ _ _ hr) hp e2
        have := ih' s2 (by omega) (fun e he => (k1 e).2 ((hb e he).ext e1))
        rw [k3]
        split
        · split
          · simp
          · split
            · simp
            · exact this
        · exact this
      | fuel => exact (hne hr).elim
      | _ => simp [appendFields, ht, hr]

/-- The number of listed types not yet on the stack. -/
noncomputable def fresh (S : List TypeId) (s : List Frame) : Nat := by
  classical exact (S.filter fun e => decide (¬ HasR s e)).length

theorem fresh_le {S : List TypeId} {s s' : List Frame} (h : ∀ e, HasR s e → HasR s' e) : fresh S s' ≤ fresh S s := by
  classical
  unfold fresh
  induction S with
  | nil => simp
  | cons a S ih =>
    by_cases h1 : HasR s' a
    · by_cases h2 : HasR s a
      · simpa [h1, h2] using ih
      · simpa [h1, h2] using Nat.le_succ_of_le ih
    · have h2 : ¬ HasR s a := fun hc => h1 (h a hc)
      simpa [h1, h2] using ih

theorem fresh_lt {S : List TypeId} {s s' : List Frame} (h : ∀ e, HasR s e → HasR s' e) {t : TypeId} (ht : t ∈ S) (h1 : ¬ HasR s t) (h2 : HasR s' t) : fresh S s' < fresh S s := by
  classical
  induction S with
  | nil => simp at ht
  | cons a S ih =>
    have hle := fresh_le (S := S) h
    unfold fresh at ih hle ⊢
    by_cases ha : t = a
    · subst ha
      simpa [h1, h2] using Nat.lt_succ_of_le hle
    · have ht : t ∈ S := by
        rcases List.mem_cons.1 ht with h | h
        · exact (ha h).elim
        · exact h
      have ih := ih ht
      by_cases h3 : HasR s' a
      · by_cases h4 : HasR s a
        · simpa [h3, h4] using ih
        · simpa [h3, h4] using Nat.lt_succ_of_lt ih
      · have h4 : ¬ HasR s a := fun hc => h3 (h a hc)
        simpa [h3, h4] using ih

/-- Fuel that suffices for type `t` on stack `s`. -/
noncomputable def need (env : TypeEnv) (S : List TypeId) (rank : TypeId → Nat) (R : Nat) (s : List Frame) (t : TypeId) : Nat := by
  classical exact fresh S s * (R + 3) + (if (env t).kind = .struct ∧ ¬ HasR s t then 1 else rank t + 2)

theorem append_ends {env : TypeEnv} {W : Nat} {opts : Option InitOptions} {S : List TypeId} {rank : TypeId → Nat} {R : Nat} (hR : ∀ t ∈ S, rank t ≤ R) (hS : ∀ t ∈ S, ∀ c, Child env t c → c ∈ S)
    (hrank : ∀ t ∈ S, ∀ c, Child env t c → Tied env t c ∨ rank c < rank t) :
    ∀ (n : Nat) (s : List Frame) (t : TypeId), t ∈ S → need env S rank R s t ≤ n → appendType env W opts n s (some t) ≠ .fuel := by
  classical
  intro n
  induction n with
  | zero =>
    intro s t _ h
    unfold need at h
    split at h <;> omega
  | succ n ih =>
    intro s t ht hn
    have ns : ∀ {c : TypeId} {s : List Frame}, rank c + 2 + fresh S s * (R + 3) ≤ n → need env S rank R s c ≤ n := by
      intro c s h
      unfold need
      split <;> omega
    -- a type of lower rank
    have strong : ¬ ((env t).kind = .struct ∧ ¬ HasR s t) → ∀ c, rank c < rank t → c ∈ S → ∀ s', (∀ e, HasR s e → HasR s' e) → appendType env W opts n s' (some c) ≠ .fuel := by
      intro hk c hc hcS s' hs'
      have h2 : fresh S s' * (R + 3) ≤ fresh S s * (R + 3) := Nat.mul_le_mul_right _ (fresh_le (S := S) hs')
      unfold need at hn
      rw [if_neg hk] at hn
      exact ih s' c hcS (ns (by omega))
    -- fewer types left
    have less : ∀ c ∈ S, ∀ s' : List Frame, fresh S s' < fresh S s → appendType env W opts n s' (some c) ≠ .fuel := by
      intro c hcS s' hs'
      have h2 : (fresh S s' + 1) * (R + 3) ≤ fresh S s * (R + 3) := Nat.mul_le_mul_right _ hs'
      rw [Nat.add_mul] at h2
      have := hR c hcS
      refine ih s' c hcS (ns ?_)
      unfold need at hn
      split at hn <;> omega
    -- a struct type that was not on the stack
    have tied : (env t).kind ≠ .struct → ∀ c, (env c).kind = .struct → c ∈ S → ¬ HasR s c → ∀ s', (∀ e, HasR s e → HasR s' e) → appendType env W opts n s' (some c) ≠ .fuel := by
      intro hk c hc hcS hnR s' hs'
      by_cases hR' : HasR s' c
      · exact less c hcS s' (fresh_lt hs' hcS hnR hR')
      have h2 : fresh S s' * (R + 3) ≤ fresh S s * (R + 3) := Nat.mul_le_mul_right _ (fresh_le (S := S) hs')
      unfold need at hn
      rw [if_neg (fun h => hk h.1)] at hn
      refine ih s' c hcS ?_
      unfold need
      rw [if_pos ⟨hc, hR'⟩]
      omega
    have pf : ∀ {i : Nat} {g : Frame → Frame} {r : AppendRes}, r ≠ .fuel → post i g r ≠ .fuel := fun h hc => h (post_fuel hc)
    cases node env W opts t with
    | leaf f hc hk hi hb hr hs hh => rw [hh]; simp
    | bad hb hh => rw [hh]; simp
    | iface hb hh => rw [hh]; simp
    | elem f g hc hk hi hb hf hg hs hp hns hnt hh =>
      rw [hh]
      have hch := (hc _).2 rfl
      refine pf (strong (fun h => hns h.1) _ ?_ (hS t ht _ hch) _ (fun e he => hasR_push.2 (.inl he)))
      exact (hrank t ht _ hch).resolve_left hnt
    | tied f f' g hc ht' hns hk hi hb hf hf' hg hs hs' hp hh =>
      rw [hh]
      split
      · simp
      · rename_i hf0
        exact pf (tied hns _ ht'.2.2.1 (hS t ht _ ((hc _).2 rfl)) (find_none hf0) _ (fun e he => hasR_push.2 (.inl he)))
    | map f f' g b hc ht' hk hi hb hf hf' hg hs hs' hp hh =>
      rw [hh]
      have hck := (hc _).2 (.inl rfl)
      have hce := (hc _).2 (.inr rfl)
      have hns : (env t).kind ≠ .struct := by rw [ht'.1]; simp
      have hkr : rank (env t).key < rank t := by
        refine (hrank t ht _ hck).resolve_left fun h => ?_
        rcases h.1 with h1 | h1 | h1
        · rw [ht'.1] at h1; cases h1
        · rw [ht'.1] at h1; cases h1
        · exact h1.2 rfl
      split
      · exact pf (strong (fun h => hns h.1) _ hkr (hS t ht _ hck) _ (fun e he => hasR_push.2 (.inl (hasR_mark.2 he))))
      · rename_i hf0
        split
        · rename_i s1 h1
          obtain ⟨s0, h0, rfl⟩ := post_ok h1
          have hR0 : ∀ e, HasR s e → HasR (s0.modify (s.length + 1) (g s.length)) e := fun e he =>
            (hasR_modify (hg _)).2 ((hasR_push.2 (.inl he)).ext (append_ext _ _ _ _ _ _ _ h0).1)
          refine pf ?_
          rcases hrank t ht _ hce with h | h
          · have hb : b = true := ht'.2.2 h.2.2
            rw [if_pos hb] at hf0
            exact tied hns _ h.2.2.1 (hS t ht _ hce) (find_none hf0) _ hR0
          · exact strong (fun h => hns h.1) _ h (hS t ht _ hce) _ hR0
        · rename_i hne
          exact pf (strong (fun h => hns h.1) _ hkr (hS t ht _ hck) _ (fun e he => hasR_push.2 (.inl he)))
    | struct f hu hk hf hs hp hh =>
      rw [hh]
      refine fields_ends (b := s ++ [f]) (fun a b c h => append_ext _ _ _ _ _ _ _ h) (fun a b c h => head_frame h) _ _ (by simp) (fun _ h => h) ?_
      intro f' hf' r hr s' hs'
      have hch : Child env t f'.type := .field hu hk hf' hr
      by_cases hn' : HasR s t
      · refine strong (fun h => h.2 hn') _ ?_ (hS t ht _ hch) s' (fun e he => hs' e (hasR_push.2 (.inl he)))
        refine (hrank t ht _ hch).resolve_left fun h => ?_
        rcases h.1 with h | h | h
        · rw [hk] at h; cases h
        · rw [hk] at h; cases h
        · rw [hk] at h; cases h.1
      · exact less _ (hS t ht _ hch) s' (fresh_lt (fun e he => hs' e (hasR_push.2 (.inl he))) ht hn' (hs' t (hasR_push.2 (.inr hf))))

end Verif.Proof.TypeGraph

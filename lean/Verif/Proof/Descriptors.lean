import Verif.Spec.Descriptors
import Verif.Proof.NewDecoder
/-!
# The frame table describes the types
-/
namespace Verif.Proof.Descriptors
open Verif.Model Verif.Spec Verif.Proof.TypeGraph

/-- Frames that can be turned into frames of recursive structs. -/
def markable : EType → Bool
  | .struct | .structRecur | .jsonUnmarshaler | .textUnmarshaler => true
  | _ => false

section
variable {env : TypeEnv}

/-- What later frames do to an earlier one. -/
structure Own (env : TypeEnv) (f f' : Frame) : Prop where
  rtype : f'.rtype = f.rtype
  typ : f'.typ = f.typ
  size : f'.size = f.size
  mvt : f'.mapValueTyp = f.mapValueTyp
  mvs : f'.mapValueSize = f.mapValueSize
  recur : f'.recurFrame = f.recurFrame
  type : f'.type = f.type ∨ (f'.type = .structRecur ∧ markable f.type = true ∧ ∃ r, f.typ = some r ∧ (env r).kind = .struct) ∨ ∃ k, f.type = .scalar k ∧ f'.type = .quoted k

theorem Own.refl (f : Frame) : Own env f f := ⟨rfl, rfl, rfl, rfl, rfl, rfl, .inl rfl⟩

theorem Own.trans {a b c : Frame} (h : Own env a b) (h' : Own env b c) : Own env a c := by
  refine ⟨h'.rtype.trans h.rtype, h'.typ.trans h.typ, h'.size.trans h.size, h'.mvt.trans h.mvt, h'.mvs.trans h.mvs, h'.recur.trans h.recur, ?_⟩
  rcases h'.type with e | ⟨e1, e2, r, e3, e4⟩ | ⟨k, e1, e2⟩
  · rw [e]; exact h.type
  · rw [h.typ] at e3
    rcases h.type with g | ⟨g1, g2, g3⟩ | ⟨k, g1, g2⟩
    · rw [g] at e2; exact .inr (.inl ⟨e1, e2, r, e3, e4⟩)
    · exact .inr (.inl ⟨e1, g2, g3⟩)
    · rw [g2] at e2; cases e2
  · rcases h.type with g | ⟨g1, g2, g3⟩ | ⟨k', g1, g2⟩
    · rw [g] at e1; exact .inr (.inr ⟨k, e1, e2⟩)
    · rw [g1] at e1; cases e1
    · rw [g2] at e1; cases e1

theorem Own.leaf {f f' : Frame} (h : Own env f f') (hl : leafFrame f'.type = true) : leafFrame f.type = true := by
  rcases h.type with e | ⟨e, -⟩ | ⟨k, e, -⟩
  · rw [← e]; exact hl
  · rw [e] at hl; cases hl
  · rw [e]; rfl

theorem Own.stays {f f' : Frame} (h : Own env f f') (hl : f.type = .structRecur) : f'.type = .structRecur := by
  rcases h.type with e | ⟨e, -⟩ | ⟨k, e, -⟩
  · rw [e, hl]
  · exact e
  · rw [e] at hl; cases hl

/-- The parts other frames rely on are kept, except for the capacities. -/
def K (s s' : List Frame) : Prop :=
  ∀ (j : Nat) (g : Frame), s[j]? = some g → ∃ g' : Frame, s'[j]? = some g' ∧ g'.typ = g.typ ∧ (leafFrame g'.type = true → leafFrame g.type = true) ∧ (g.type = .structRecur → g'.type = .structRecur)

theorem K.trans {a b c : List Frame} (h : K a b) (h' : K b c) : K a c := by
  intro j g hg
  obtain ⟨g1, a1, a2, a3, a4⟩ := h j g hg
  obtain ⟨g2, b1, b2, b3, b4⟩ := h' j g1 a1
  exact ⟨g2, b1, b2.trans a2, fun h => a3 (b3 h), fun h => b4 (a4 h)⟩

theorem K.typ {s s' : List Frame} (h : K s s') {j : Nat} {t : TypeId} (ht : HasTyp s j t) : HasTyp s' j t := by
  obtain ⟨g, h1, h2⟩ := ht
  obtain ⟨g', a1, a2, -⟩ := h j g h1
  exact ⟨g', a1, a2.trans h2⟩

theorem K.recurs {s s' : List Frame} (h : K s s') {j : Nat} {t : TypeId} (ht : RecursTo s j t) : RecursTo s' j t := by
  obtain ⟨g, h1, h2, h3⟩ := ht
  obtain ⟨g', a1, a2, -, a4⟩ := h j g h1
  exact ⟨g', a1, a2.trans h2, a4 h3⟩

theorem K.fields {s s' : List Frame} (h : K s s') {fs : List FieldInfo} {l : List (Bytes × Nat)} (hf : FieldTypes s fs l) : FieldTypes s' fs l := by
  induction hf with
  | nil => exact .nil
  | ignored ht _ ih => exact .ignored ht ih
  | field ht hj _ ih => exact .field ht (h.typ hj) ih

/-- The frames before `n` are only changed in the ways later frames do; they keep their fields and capacity. -/
def P (env : TypeEnv) (n : Nat) (s s' : List Frame) : Prop :=
  ∀ (j : Nat) (g : Frame), j < n → s[j]? = some g → ∃ g' : Frame, s'[j]? = some g' ∧ Own env g g' ∧ g'.fields = g.fields ∧ g'.cap = g.cap

theorem P.trans {n m : Nat} {a b c : List Frame} (h : P env n a b) (h' : P env m b c) (hm : n ≤ m) : P env n a c := by
  intro j g hj hg
  obtain ⟨g1, a1, a2, a3, a4⟩ := h j g hj hg
  obtain ⟨g2, b1, b2, b3, b4⟩ := h' j g1 (by omega) a1
  exact ⟨g2, b1, a2.trans b2, b3.trans a3, b4.trans a4⟩

theorem P.push {s : List Frame} {n : Nat} (l : List Frame) : P env n s (s ++ l) := by
  intro j g hj hg
  refine ⟨g, ?_, .refl g, rfl, rfl⟩
  rw [List.getElem?_append_left (List.getElem?_eq_some_iff.1 hg).1]; exact hg

theorem P.mono {s s' : List Frame} {n m : Nat} (h : P env n s s') (hm : m ≤ n) : P env m s s' := fun j g hj hg => h j g (by omega) hg

theorem P.K {s s' : List Frame} (h : P env s.length s s') : K s s' := by
  intro j g hg
  obtain ⟨g', h1, h2, -⟩ := h j g (List.getElem?_eq_some_iff.1 hg).1 hg
  exact ⟨g', h1, h2.typ, h2.leaf, h2.stays⟩

theorem P.modify {s : List Frame} {n i : Nat} {u : Frame → Frame} (hu : ∀ g, s[i]? = some g → Own env g (u g) ∧ (i < n → (u g).fields = g.fields ∧ (u g).cap = g.cap)) : P env n s (s.modify i u) := by
  intro j g hj hg
  rw [List.getElem?_modify, hg]
  by_cases hi : i = j
  · subst hi
    obtain ⟨h1, h2⟩ := hu g hg
    exact ⟨u g, by simp, h1, h2 hj⟩
  · exact ⟨g, by simp [hi], .refl g, rfl, rfl⟩

/-- `RType` and `Typ` agree. -/
def RT (env : TypeEnv) (s : List Frame) : Prop :=
  ∀ (j : Nat) (g : Frame), s[j]? = some g → ∀ r, g.rtype = some r → g.typ = some r ∧ ((env r).kind = .struct → markable g.type = true)

theorem RT.own {g g' : Frame} (h : Own env g g') (hg : ∀ r, g.rtype = some r → g.typ = some r ∧ ((env r).kind = .struct → markable g.type = true)) :
    ∀ r, g'.rtype = some r → g'.typ = some r ∧ ((env r).kind = .struct → markable g'.type = true) := by
  intro r hr
  rw [h.rtype] at hr
  obtain ⟨h1, h2⟩ := hg r hr
  refine ⟨h.typ.trans h1, fun hk => ?_⟩
  rcases h.type with e | ⟨e, -⟩ | ⟨k, e, -⟩
  · rw [e]; exact h2 hk
  · rw [e]; rfl
  · have := h2 hk; rw [e] at this; cases this

theorem RT.push {s : List Frame} (h : RT env s) {f : Frame} (hf : ∀ r, f.rtype = some r → f.typ = some r ∧ ((env r).kind = .struct → markable f.type = true)) : RT env (s ++ [f]) := by
  intro j g hg
  by_cases hj : j < s.length
  · rw [List.getElem?_append_left hj] at hg; exact h j g hg
  · obtain ⟨hl, -⟩ := List.getElem?_eq_some_iff.1 hg
    have : j = s.length := by simp at hl; omega
    subst this
    simp at hg
    subst hg; exact hf

theorem RT.modify {s : List Frame} (h : RT env s) {i : Nat} {u : Frame → Frame} (hu : ∀ g, s[i]? = some g → Own env g (u g)) : RT env (s.modify i u) := by
  intro j g hg
  rw [List.getElem?_modify] at hg
  obtain ⟨g0, h0, rfl⟩ := Option.map_eq_some_iff.1 hg
  by_cases hi : i = j
  · subst hi; simp only [if_true]; exact RT.own (hu g0 h0) (h _ g0 h0)
  · simp only [hi, if_false]; exact h j g0 h0

theorem find_at {e : TypeId} : ∀ {s : List Frame} {j : Nat}, findRType e s = some j → ∃ g, s[j]? = some g ∧ g.rtype = some e
  | [], _, h => by cases h
  | f :: fs, j, h => by
    simp only [findRType] at h
    split at h
    · cases h; exact ⟨f, rfl, by assumption⟩
    · obtain ⟨j', h1, rfl⟩ := Option.map_eq_some_iff.1 h
      obtain ⟨g, h2, h3⟩ := find_at h1
      exact ⟨g, by simpa using h2, h3⟩

/-- Frame `i` is right. -/
def FitsAt (env : TypeEnv) (s : List Frame) (i : Nat) : Prop :=
  ∀ f, s[i]? = some f → ∃ t, f.typ = some t ∧ f.size = (env t).size ∧ FrameFits env s i f t

theorem fits_keep {s s' : List Frame} {i : Nat} {f f' : Frame} {t : TypeId} (hK : K s s') (ho : Own env f f') (hf : f'.fields = f.fields)
    (hcap : f.type = .array → ∀ g g', s[i + 1]? = some g → s'[i + 1]? = some g' → g'.cap = g.cap) (ht : f.typ = some t) (h : FrameFits env s i f t) : FrameFits env s' i f' t := by
  rcases ho.type with e | ⟨e1, e2, r, e3, e4⟩ | ⟨k, e1, e2⟩
  · cases hty : f.type <;> simp only [FrameFits, e, hty] at h ⊢ <;> try exact h
    case ptr => exact ⟨h.1, hK.typ h.2⟩
    case ptrRecur => rw [ho.recur]; exact ⟨h.1, hK.recurs h.2⟩
    case map =>
      obtain ⟨h1, h2, h3, g, h4, h5, h6⟩ := h
      rw [ho.mvt, ho.mvs]
      obtain ⟨g', a1, a2, a3, -⟩ := hK _ g h4
      exact ⟨h1, h2, h3, g', a1, a2.trans h5, fun hl => hK.typ (h6 (a3 hl))⟩
    case mapRecur => rw [ho.recur, ho.mvt, ho.mvs]; exact ⟨h.1, h.2.1, h.2.2.1, hK.typ h.2.2.2.1, hK.recurs h.2.2.2.2⟩
    case array =>
      obtain ⟨h1, g, h4, h5, h6⟩ := h
      obtain ⟨g', a1, a2, -⟩ := hK _ g h4
      exact ⟨h1, g', a1, a2.trans h5, (hcap hty g g' h4 a1).trans h6⟩
    case slice => exact ⟨h.1, hK.typ h.2⟩
    case sliceRecur => rw [ho.recur]; exact ⟨h.1, hK.recurs h.2⟩
    case struct => rw [hf]; exact ⟨h.1, fun hu => hK.fields (h.2 hu)⟩
    case structRecur => rw [hf]; exact ⟨h.1, fun hu => hK.fields (h.2 hu)⟩
  · rw [ht] at e3; cases e3
    cases hty : f.type <;> rw [hty] at e2 <;> try (cases e2; done)
    all_goals simp only [FrameFits, e1, hty] at h ⊢
    case jsonUnmarshaler => exact ⟨e4, fun hu => by simp [TypeInfo.unmarshaler, h] at hu⟩
    case textUnmarshaler => exact ⟨e4, fun hu => by simp [TypeInfo.unmarshaler, h] at hu⟩
    case struct => rw [hf]; exact ⟨h.1, fun hu => hK.fields (h.2 hu)⟩
    case structRecur => rw [hf]; exact ⟨h.1, fun hu => hK.fields (h.2 hu)⟩
  · simp only [FrameFits, e1, e2] at h ⊢; exact h

/-- Right frames stay right. -/
theorem fits_P {s s' : List Frame} {i : Nat} (h : P env s.length s s') (hi : i < s.length) (hf : FitsAt env s i) : FitsAt env s' i := by
  intro f' hf'
  obtain ⟨g', h1, h2, h3, h4⟩ := h i s[i] hi (List.getElem?_eq_getElem hi)
  rw [hf'] at h1; cases h1
  obtain ⟨t, k1, k2, k3⟩ := hf _ (List.getElem?_eq_getElem hi)
  refine ⟨t, h2.typ.trans k1, h2.size.trans k2, fits_keep h.K h2 h3 ?_ k1 k3⟩
  intro _ g g' hg hg'
  obtain ⟨g'', a1, -, -, a4⟩ := h _ g (List.getElem?_eq_some_iff.1 hg).1 hg
  rw [hg'] at a1; cases a1
  exact a4

/-- The result of a successful call. -/
structure Res (env : TypeEnv) (s s' : List Frame) (t : TypeId) : Prop where
  keep : P env s.length s s'
  rt : RT env s'
  len : s.length < s'.length
  head : ∃ g, s'[s.length]? = some g ∧ g.typ = some t ∧ (leafFrame g.type = true → s'.length = s.length + 1)
  fits : ∀ i, s.length ≤ i → FitsAt env s' i

theorem one {s : List Frame} {f : Frame} {t : TypeId} (hs : RT env s) (hr : ∀ r, f.rtype = some r → r = t ∧ ((env t).kind = .struct → markable f.type = true)) (ht : f.typ = some t) (hz : f.size = (env t).size)
    (hf : FrameFits env (s ++ [f]) s.length f t) : Res env s (s ++ [f]) t := by
  refine ⟨.push _, hs.push fun r hr' => ?_, by simp, ⟨f, by simp, ht, fun _ => by simp⟩, ?_⟩
  · obtain ⟨rfl, h⟩ := hr r hr'; exact ⟨ht, h⟩
  · intro i hi g hg
    obtain ⟨hl, -⟩ := List.getElem?_eq_some_iff.1 hg
    have : i = s.length := by simp at hl; omega
    subst this
    simp at hg
    subst hg; exact ⟨t, ht, hz, hf⟩

/-- Marking a frame. -/
theorem P.mark {s : List Frame} (hs : RT env s) {j : Nat} {e : TypeId} (hj : findRType e s = some j) (hk : (env e).kind = .struct) :
    P env s.length s (markRecur s j) ∧ RT env (markRecur s j) ∧ RecursTo (markRecur s j) j e := by
  obtain ⟨g, h1, h2⟩ := find_at hj
  have ho : ∀ g', s[j]? = some g' → Own env g' { g' with type := .structRecur } := by
    intro g' hg'
    rw [h1] at hg'; cases hg'
    obtain ⟨a, b⟩ := hs j g h1 e h2
    exact ⟨rfl, rfl, rfl, rfl, rfl, rfl, .inr (.inl ⟨rfl, b hk, e, a, hk⟩)⟩
  refine ⟨.modify fun g' hg' => ⟨ho g' hg', fun _ => ⟨rfl, rfl⟩⟩, hs.modify ho, { g with type := .structRecur }, ?_, (hs j g h1 e h2).1, rfl⟩
  rw [markRecur, List.getElem?_modify, h1]; simp

theorem Res.pre {s s1 s' : List Frame} {t : TypeId} (h : P env s.length s s1) (hl : s1.length = s.length) (hr : Res env s1 s' t) : Res env s s' t := by
  obtain ⟨a, b, c, d, e⟩ := hr
  rw [hl] at a c d e
  exact ⟨h.trans a (Nat.le_refl _), b, c, d, e⟩

/-- Setting the parent of a frame. -/
theorem Res.parent {s s' : List Frame} {t : TypeId} (h : Res env s s' t) (p i : Nat) : Res env s (s'.modify i fun f => { f with parent := some p }) t := by
  have hP : ∀ n, P env n s' (s'.modify i fun f => { f with parent := some p }) := fun n => .modify fun g _ => ⟨⟨rfl, rfl, rfl, rfl, rfl, rfl, .inl rfl⟩, fun _ => ⟨rfl, rfl⟩⟩
  obtain ⟨g, h1, h2, h3⟩ := h.head
  refine ⟨h.keep.trans (hP s'.length) (Nat.le_of_lt h.len), h.rt.modify fun g _ => ⟨rfl, rfl, rfl, rfl, rfl, rfl, .inl rfl⟩, by simpa using h.len, ?_, ?_⟩
  · obtain ⟨g', a1, a2, -⟩ := hP s'.length _ g h.len h1
    exact ⟨g', a1, a2.typ.trans h2, fun hl => by simpa using h3 (a2.leaf hl)⟩
  · intro i' hi'
    by_cases hlt : i' < s'.length
    · exact fits_P (hP _) hlt (h.fits i' hi')
    · intro f hf
      have := (List.getElem?_eq_some_iff.1 hf).1
      simp at this; omega

theorem link_res {s : List Frame} {t : TypeId} {p i : Nat} {r : AppendRes} {s' : List Frame} (h : linkParent p i r = .ok s') (hr : ∀ s1, r = .ok s1 → Res env s s1 t) : Res env s s' t := by
  cases r <;> simp only [linkParent, AppendRes.ok.injEq, reduceCtorEq] at h
  subst h
  exact (hr _ rfl).parent _ _

/-- A composite frame followed by the frames of an element type. -/
theorem composite {s s' : List Frame} {f : Frame} {t e : TypeId} (h : Res env (s ++ [f]) s' e) (ht : f.typ = some t) (hz : f.size = (env t).size) (hl : leafFrame f.type = false)
    (hf : ∀ f', Own env f f' → f'.fields = f.fields → HasTyp s' (s.length + 1) e → FrameFits env s' s.length f' t) : Res env s s' t := by
  have hlen : (s ++ [f]).length = s.length + 1 := by simp
  obtain ⟨f', h1, h2, h3, -⟩ := h.keep s.length f (by simp) (by simp)
  have hll : leafFrame f'.type = false := by
    cases hc : leafFrame f'.type with
    | false => rfl
    | true => rw [h2.leaf hc] at hl; cases hl
  refine ⟨?_, h.rt, ?_, ⟨f', h1, h2.typ.trans ht, fun hc => (by rw [hll] at hc; cases hc)⟩, ?_⟩
  · exact (P.push [f]).trans h.keep (by simp)
  · have := h.len; simp at this; omega
  · intro i hi
    by_cases hi' : i = s.length
    · subst hi'
      intro g hg
      rw [h1] at hg; cases hg
      obtain ⟨g', a1, a2, -⟩ := h.head
      rw [hlen] at a1
      exact ⟨t, h2.typ.trans ht, h2.size.trans hz, hf f' h2 h3 ⟨g', a1, a2⟩⟩
    · exact h.fits i (by rw [hlen]; omega)

/-- The element frame of an array gets the length of the array. -/
theorem array_cap {s s' : List Frame} {e : TypeId} {q n : Nat} (h : Res env s s' e) (hq : q = s.length) (p : Nat) :
    Res env s (s'.modify q fun f => { f with parent := some p, cap := n }) e ∧ ∃ g, (s'.modify q fun f => { f with parent := some p, cap := n })[q]? = some g ∧ g.typ = some e ∧ g.cap = n := by
  subst hq
  have ho : ∀ g : Frame, Own env g { g with parent := some p, cap := n } := fun g => ⟨rfl, rfl, rfl, rfl, rfl, rfl, .inl rfl⟩
  have hK : K s' (s'.modify s.length fun f => { f with parent := some p, cap := n }) := by
    intro j g hg
    rw [List.getElem?_modify, hg]
    by_cases hj : s.length = j
    · exact ⟨{ g with parent := some p, cap := n }, by simp [hj], rfl, id, id⟩
    · exact ⟨g, by simp [hj], rfl, id, id⟩
  obtain ⟨g, h1, h2, h3⟩ := h.head
  refine ⟨⟨?_, h.rt.modify fun g _ => ho g, by simpa using h.len, ⟨{ g with parent := some p, cap := n }, by simp [List.getElem?_modify, h1], h2, fun hl => by simpa using h3 hl⟩, ?_⟩,
    { g with parent := some p, cap := n }, by simp [List.getElem?_modify, h1], h2, rfl⟩
  · exact h.keep.trans (.modify fun g _ => ⟨ho g, fun hc => absurd hc (Nat.lt_irrefl _)⟩) (Nat.le_refl _)
  · intro i hi f' hf'
    rw [List.getElem?_modify] at hf'
    obtain ⟨f0, h0, h0'⟩ := Option.map_eq_some_iff.1 hf'
    have how : Own env f0 f' ∧ f'.fields = f0.fields := by
      subst h0'
      split
      · exact ⟨ho f0, rfl⟩
      · exact ⟨.refl _, rfl⟩
    obtain ⟨t, k1, k2, k3⟩ := h.fits i hi f0 h0
    refine ⟨t, how.1.typ.trans k1, how.1.size.trans k2, fits_keep hK how.1 how.2 ?_ k1 k3⟩
    intro _ g g' hg hg'
    rw [List.getElem?_modify, hg] at hg'
    have : ¬ s.length = i + 1 := by omega
    simp [this] at hg'
    rw [hg']

theorem FieldTypes.app {fr : List Frame} {a b : List FieldInfo} {l m : List (Bytes × Nat)} (h : FieldTypes fr a l) (h' : FieldTypes fr b m) : FieldTypes fr (a ++ b) (l ++ m) := by
  induction h with
  | nil => exact h'
  | ignored ht _ ih => exact .ignored ht ih
  | field ht hj _ ih => exact .field ht hj ih

theorem fields_res {rec' : List Frame → TypeId → AppendRes} {opts : Option InitOptions} (hrec : ∀ s t s', RT env s → rec' s t = .ok s' → Res env s s' t) {p : Nat} :
    ∀ (fs : List FieldInfo) (s s' : List Frame) (fp : Frame), RT env s → s[p]? = some fp → (∀ i, p < i → FitsAt env s i) → appendFields rec' opts p fs s = .ok s' →
    ∃ fp' l, s'[p]? = some fp' ∧ Own env fp fp' ∧ fp'.fields = fp.fields ++ l ∧ FieldTypes s' fs l ∧ P env p s s' ∧ K s s' ∧ RT env s' ∧ (∀ i, p < i → FitsAt env s' i) ∧ s.length ≤ s'.length := by
  intro fs
  induction fs with
  | nil => intro s s' fp hs hp hf h; cases h; exact ⟨fp, [], hp, .refl _, by simp, .nil, fun j g _ hg => ⟨g, hg, .refl _, rfl, rfl⟩, fun j g hg => ⟨g, hg, rfl, id, id⟩, hs, hf, Nat.le_refl _⟩
  | cons f fs ih =>
    intro s s' fp hs hp hf hr
    simp only [appendFields] at hr
    split at hr
    · rename_i hpt
      obtain ⟨fp', l, h1, h2, h3, h4, h5⟩ := ih s s' fp hs hp hf hr
      exact ⟨fp', l, h1, h2, h3, .ignored (tag_iff.2 hpt) h4, h5⟩
    · rename_i name opt hpt
      split at hr
      · rename_i s1 hs1
        have hlt : p < s.length := (List.getElem?_eq_some_iff.1 hp).1
        have R := hrec s f.type s1 hs hs1
        have hl1 := R.len
        -- the stack after the changes to the struct frame and the new frame
        have key : ∀ (u : Frame → Frame) (s4 : List Frame), (∀ g, s1[s.length]? = some g → Own env g (u g) ∧ (u g).fields = g.fields ∧ (u g).cap = g.cap) →
            s4 = (s1.modify p fun p => { p with fields := p.fields ++ [(name, s.length)] }).modify s.length u → appendFields rec' opts p fs s4 = .ok s' →
            ∃ fp' l, s'[p]? = some fp' ∧ Own env fp fp' ∧ fp'.fields = fp.fields ++ l ∧ FieldTypes s' (f :: fs) l ∧ P env p s s' ∧ K s s' ∧ RT env s' ∧ (∀ i, p < i → FitsAt env s' i) ∧ s.length ≤ s'.length := by
          intro u s4 hu hs4 hr4
          have hget : ∀ j g, s1[j]? = some g → ∃ g', s4[j]? = some g' ∧ Own env g g' ∧ g'.cap = g.cap ∧ (j ≠ p → g'.fields = g.fields) ∧ (j = p → g'.fields = g.fields ++ [(name, s.length)]) := by
            intro j g hg
            rw [hs4, List.getElem?_modify, List.getElem?_modify, hg]
            by_cases hj : s.length = j
            · subst hj
              obtain ⟨a, b, c⟩ := hu g hg
              have hne : ¬ p = s.length := by omega
              exact ⟨u g, by simp [hne], a, c, fun _ => b, fun hc => absurd hc.symm hne⟩
            · by_cases hjp : p = j
              · exact ⟨{ g with fields := g.fields ++ [(name, s.length)] }, by simp [hj, hjp], ⟨rfl, rfl, rfl, rfl, rfl, rfl, .inl rfl⟩, rfl, fun hc => absurd hjp.symm hc, fun _ => rfl⟩
              · exact ⟨g, by simp [hj, hjp], .refl _, rfl, fun _ => rfl, fun hc => absurd hc.symm hjp⟩
          have hlen : s4.length = s1.length := by rw [hs4]; simp
          have hK14 : K s1 s4 := fun j g hg => by
            obtain ⟨g', a1, a2, -⟩ := hget j g hg
            exact ⟨g', a1, a2.typ, a2.leaf, a2.stays⟩
          have hback : ∀ j g', s4[j]? = some g' → ∃ g, s1[j]? = some g := fun j g' hg' => by
            have := (List.getElem?_eq_some_iff.1 hg').1
            exact ⟨s1[j]'(by omega), List.getElem?_eq_getElem _⟩
          have hRT : RT env s4 := by
            intro j g' hg'
            obtain ⟨g, hg⟩ := hback j g' hg'
            obtain ⟨g'', a1, a2, -⟩ := hget j g hg
            rw [hg'] at a1; cases a1
            exact RT.own a2 (R.rt j g hg)
          have hf1 : ∀ i, p < i → FitsAt env s1 i := by
            intro i hi
            by_cases his : i < s.length
            · exact fits_P R.keep his (hf i hi)
            · exact R.fits i (by omega)
          have hf4 : ∀ i, p < i → FitsAt env s4 i := by
            intro i hi g' hg'
            obtain ⟨g, hg⟩ := hback i g' hg'
            obtain ⟨g'', a1, a2, -, a4, -⟩ := hget i g hg
            rw [hg'] at a1; cases a1
            obtain ⟨t, k1, k2, k3⟩ := hf1 i hi g hg
            refine ⟨t, a2.typ.trans k1, a2.size.trans k2, fits_keep hK14 a2 (a4 (by omega)) ?_ k1 k3⟩
            intro _ e e' he he'
            obtain ⟨e'', b1, -, b3, -⟩ := hget _ e he
            rw [he'] at b1; cases b1
            exact b3
          obtain ⟨fp1, c1, c2, c3, c4⟩ := R.keep p fp hlt hp
          obtain ⟨fp4, d1, d2, -, -, d3⟩ := hget p fp1 c1
          obtain ⟨fp', l, h1, h2, h3, h4, h5, h6, h7, h8, h9⟩ := ih s4 s' fp4 hRT d1 hf4 hr4
          refine ⟨fp', (name, s.length) :: l, h1, (c2.trans d2).trans h2, ?_, ?_, ?_, (R.keep.K.trans hK14).trans h6, h7, h8, by omega⟩
          · rw [h3, d3 rfl, c3]; simp
          · obtain ⟨g, e1, e2, -⟩ := R.head
            exact .field (tag_iff.2 hpt) (h6.typ (hK14.typ ⟨g, e1, e2⟩)) h4
          · refine P.trans (R.keep.mono (Nat.le_of_lt hlt)) (P.trans (m := p) ?_ h5 (Nat.le_refl _)) (Nat.le_refl _)
            intro j g hj hg
            obtain ⟨g', a1, a2, a3, a4, -⟩ := hget j g hg
            exact ⟨g', a1, a2, a4 (by omega), a3⟩
        split at hr
        · split at hr
          · cases hr
          · rename_i g hg
            split at hr
            · rename_i t' ht'
              refine key (fun g => { g with offset := f.offset, parent := some p, type := t' }) _ ?_ ?_ hr
              · intro g1 hg1
                rw [List.getElem?_modify, List.getElem?_modify, hg1] at hg
                have hne : ¬ p = s.length := by omega
                simp [hne] at hg
                subst hg
                simp only [retagString] at ht'
                split at ht' <;> cases ht'
                rename_i k hk
                exact ⟨⟨rfl, rfl, rfl, rfl, rfl, rfl, .inr (.inr ⟨k, hk, rfl⟩)⟩, rfl, rfl⟩
              · rw [List.modify_modify_eq]; rfl
            · split at hr
              · cases hr
              · split at hr
                · cases hr
                · exact key (fun g => { g with offset := f.offset, parent := some p }) _ (fun g _ => ⟨⟨rfl, rfl, rfl, rfl, rfl, rfl, .inl rfl⟩, rfl, rfl⟩) rfl hr
        · exact key (fun g => { g with offset := f.offset, parent := some p }) _ (fun g _ => ⟨⟨rfl, rfl, rfl, rfl, rfl, rfl, .inl rfl⟩, rfl, rfl⟩) rfl hr
      · rename_i hne
        exact absurd hr (hne s')

theorem append_res {x : Ext} {opts : Option InitOptions} (hL : Layout env x) : ∀ (fuel : Nat) (s : List Frame) (t : TypeId) (s' : List Frame), RT env s →
    appendType env x.W opts fuel s (some t) = .ok s' → Res env s s' t := by
  intro fuel
  induction fuel with
  | zero => intro s t s' _ h; cases h
  | succ n ih =>
    intro s t s' hs h
    have hLt := hL t
    rw [appendType] at h
    simp only [] at h
    -- a single frame without `RType`
    have leaf : ∀ f : Frame, f.rtype = none → f.typ = some t → f.size = (env t).size → FrameFits env (s ++ [f]) s.length f t → Res env s (s ++ [f]) t :=
      fun f hr ht hz hf => one hs (fun r hr' => by rw [hr] at hr'; cases hr') ht hz hf
    by_cases hJ : (env t).implJSON
    · simp only [hJ, if_true, AppendRes.ok.injEq] at h; subst h
      exact one hs (fun r hr => by cases hr; exact ⟨rfl, fun _ => rfl⟩) rfl rfl hJ
    by_cases hT : (env t).implText
    · simp only [hJ, hT, if_true, if_false, Bool.false_eq_true, AppendRes.ok.injEq] at h; subst h
      exact one hs (fun r hr => by cases hr; exact ⟨rfl, fun _ => rfl⟩) rfl rfl hT
    simp only [hJ, hT, if_false, Bool.false_eq_true] at h
    have hu : TypeInfo.unmarshaler (env t) = false := by simp [TypeInfo.unmarshaler, hJ, hT]
    cases hk : (env t).kind with
    | bool => simp only [hk, AppendRes.ok.injEq] at h; subst h; exact leaf _ rfl rfl rfl (by simp [FrameFits, hk, scalarOf])
    | int k => simp only [hk, AppendRes.ok.injEq] at h; subst h; exact leaf _ rfl rfl rfl (by simp [FrameFits, hk, scalarOf])
    | float k => simp only [hk, AppendRes.ok.injEq] at h; subst h; exact leaf _ rfl rfl rfl (by simp [FrameFits, hk, scalarOf])
    | other => simp only [hk] at h; cases h
    | string =>
      simp only [hk] at h
      split at h <;> cases h
      · rename_i hn; exact leaf _ rfl rfl rfl ⟨hk, hn⟩
      · exact leaf _ rfl rfl rfl (by simp [FrameFits, hk, scalarOf])
    | interface =>
      simp only [hk] at h hLt
      split at h <;> cases h
      exact leaf _ rfl rfl hLt.symm hk
    | array =>
      simp only [hk] at h hLt
      split at h
      · rename_i hl
        cases h; exact leaf _ rfl rfl (by rw [hLt, hl]; simp) ⟨hk, hl⟩
      · split at h
        · rename_i s1 hs1
          cases h
          have R := ih _ _ _ (hs.push (fun r hr => by cases hr)) hs1
          obtain ⟨R1, g, g1, g2, g3⟩ := array_cap (q := s.length + 1) (n := (env t).len) R (by simp) s.length
          refine composite R1 rfl rfl rfl fun f' ho hf _ => ?_
          have hty : f'.type = .array := by
            rcases ho.type with e | ⟨-, e, -⟩ | ⟨k, e, -⟩
            · exact e
            · cases e
            · cases e
          simp only [FrameFits, hty]
          exact ⟨hk, g, g1, g2, g3⟩
        · rename_i hne
          exact absurd h (hne s')
    | pointer =>
      simp only [hk] at h
      split at h
      · rename_i hj
        split at hj
        · rename_i hst
          cases h
          obtain ⟨m1, m2, g, m3, m4, m5⟩ := P.mark hs hj hst.1
          have hlt : ∀ {j : Nat} {g : Frame} {f : Frame} {l : List Frame}, l[j]? = some g → (l ++ [f])[j]? = some g := fun hg => by
            rw [List.getElem?_append_left (List.getElem?_eq_some_iff.1 hg).1]; exact hg
          refine .pre m1 (by simp [markRecur]) (one m2 (fun r hr => by cases hr) rfl rfl ?_)
          exact ⟨hk, g, hlt m3, m4, m5⟩
        · cases hj
      · refine link_res h fun s1 hs1 => composite (ih _ _ _ (hs.push (fun r hr => by cases hr)) hs1) rfl rfl rfl fun f' ho hf he => ?_
        have hty : f'.type = .ptr := by
          rcases ho.type with e | ⟨-, e, -⟩ | ⟨k, e, -⟩
          · exact e
          · cases e
          · cases e
        simp only [FrameFits, hty]
        exact ⟨hk, he⟩
    | struct =>
      simp only [hk] at h
      split at h
      · rename_i hf0
        cases h; exact leaf _ rfl rfl rfl ⟨hk, hf0⟩
      · obtain ⟨fp', l, h1, h2, h3, h4, h5, h6, h7, h8, h9⟩ := fields_res (fun a b c ha hc => ih a b c ha hc) _ _ _ { type := .struct, rtype := some t, size := (env t).size, typ := some t } (hs.push (fun r hr => by cases hr; exact ⟨rfl, fun _ => rfl⟩))
          (by simp) (fun i hi f hf => by have := (List.getElem?_eq_some_iff.1 hf).1; simp at this; omega) h
        have hty : fp'.type = .struct ∨ fp'.type = .structRecur := by
          rcases h2.type with e | ⟨e, -⟩ | ⟨k, e, -⟩
          · exact .inl e
          · exact .inr e
          · cases e
        have hfit : FrameFits env s' s.length fp' t := by
          rcases hty with e | e <;> simp only [FrameFits, e] <;> exact ⟨hk, fun _ => by rw [h3]; exact h4⟩
        refine ⟨(P.push _).trans h5 (Nat.le_refl _), h7, by simp at h9; omega, ⟨fp', h1, h2.typ, fun hl => ?_⟩, ?_⟩
        · rcases hty with e | e <;> rw [e] at hl <;> cases hl
        · intro i hi
          by_cases his : i = s.length
          · subst his
            intro f hf
            rw [h1] at hf; cases hf
            exact ⟨t, h2.typ, h2.size, hfit⟩
          · exact h8 i (by omega)
    | map =>
      simp only [hk] at h
      split at h
      · rename_i hj
        split at hj
        · rename_i hst
          obtain ⟨m1, m2, m3⟩ := P.mark hs hj hst.1
          refine link_res h fun s1 hs1 => ?_
          have R := ih _ _ _ (m2.push (fun r hr => by cases hr)) hs1
          refine .pre m1 (by simp [markRecur]) (composite R rfl rfl rfl fun f' ho hf he => ?_)
          have hty : f'.type = .mapRecur := by
            rcases ho.type with e | ⟨-, e, -⟩ | ⟨k, e, -⟩
            · exact e
            · cases e
            · cases e
          simp only [FrameFits, hty, ho.recur, ho.mvt, ho.mvs]
          refine ⟨hk, trivial, trivial, he, ?_⟩
          obtain ⟨g, g1, g2, g3⟩ := m3
          refine R.keep.K.recurs ⟨g, ?_, g2, g3⟩
          rw [List.getElem?_append_left (List.getElem?_eq_some_iff.1 g1).1]; exact g1
        · cases hj
      · split at h
        · rename_i hss
          cases h
          refine one hs (fun r hr => by cases hr; exact ⟨rfl, fun hc => by rw [hk] at hc; cases hc⟩) rfl rfl ⟨hk, hss⟩
        · split at h
          · rename_i s1 hs1
            have R1 := link_res hs1 fun s1 hs1 => ih _ _ _ (hs.push (fun r hr => by cases hr; exact ⟨rfl, fun hc => by rw [hk] at hc; cases hc⟩)) hs1
            have R2 : Res env s1 s' (env t).elem := link_res h fun s2 hs2 => ih _ _ _ R1.rt hs2
            have hlen := R1.len
            have hlen2 := R2.len
            simp only [List.length_append, List.length_cons, List.length_nil] at hlen
            have hP := (R1.keep.trans R2.keep (Nat.le_of_lt R1.len)).mono (m := s.length + 1) (by simp)
            obtain ⟨f', f1, f2, f3, -⟩ := hP s.length _ (by omega) List.getElem?_concat_length
            have hty : f'.type = .map := by
              rcases f2.type with e | ⟨-, e, -⟩ | ⟨k, e, -⟩
              · exact e
              · cases e
              · cases e
            refine ⟨(P.push _).trans hP (by omega), R2.rt, by omega, ⟨f', f1, f2.typ, fun hl => ?_⟩, ?_⟩
            · rw [hty] at hl; cases hl
            · intro i hi
              by_cases his : i = s.length
              · subst his
                intro f hf
                rw [f1] at hf; cases hf
                refine ⟨t, f2.typ, f2.size, ?_⟩
                simp only [FrameFits, hty, f2.mvt, f2.mvs]
                obtain ⟨g, g1, g2, g3⟩ := R1.head
                simp only [List.length_append, List.length_cons, List.length_nil, Nat.zero_add] at g1 g3
                obtain ⟨g', a1, a2, -⟩ := R2.keep _ g hlen g1
                refine ⟨hk, trivial, trivial, g', a1, a2.typ.trans g2, fun hl => ?_⟩
                obtain ⟨e, e1, e2, -⟩ := R2.head
                rw [g3 (a2.leaf hl)] at e1
                exact ⟨e, e1, e2⟩
              · by_cases hi1 : i < s1.length
                · exact fits_P R2.keep hi1 (R1.fits i (by simp; omega))
                · exact R2.fits i (by omega)
          · rename_i hne
            exact absurd h (hne s')
    | slice =>
      have pl : ∀ s1, linkParent s.length (s.length + 1) (appendType env x.W opts n (s ++ [{ type := .slice, size := (env t).size, typ := some t }]) (some (env t).elem)) = .ok s1 → Res env s s1 t := by
        intro s1 h
        refine link_res h fun s1 hs1 => composite (ih _ _ _ (hs.push (fun r hr => by cases hr)) hs1) rfl rfl rfl fun f' ho hf he => ?_
        have hty : f'.type = .slice := by
          rcases ho.type with e | ⟨-, e, -⟩ | ⟨k, e, -⟩
          · exact e
          · cases e
          · cases e
        simp only [FrameFits, hty]
        exact ⟨hk, he⟩
      simp only [hk] at h
      cases he : (env (env t).elem).kind with
      | struct =>
        simp only [he] at h
        split at h
        · rename_i hz
          cases h; exact leaf _ rfl rfl rfl ⟨hk, he, by omega⟩
        · split at h
          · rename_i hj
            cases h
            obtain ⟨m1, m2, g, m3, m4, m5⟩ := P.mark hs hj he
            refine .pre m1 (by simp [markRecur]) (one m2 (fun r hr => by cases hr) rfl rfl ?_)
            refine ⟨hk, g, ?_, m4, m5⟩
            rw [List.getElem?_append_left (List.getElem?_eq_some_iff.1 m3).1]; exact m3
          · exact pl _ h
      | string =>
        simp only [he] at h
        split at h
        · exact pl _ h
        · cases h; exact leaf _ rfl rfl rfl ⟨hk, by simp [he, scalarOf]⟩
      | bool => simp only [he] at h; cases h; exact leaf _ rfl rfl rfl ⟨hk, by simp [he, scalarOf]⟩
      | int k => simp only [he] at h; cases h; exact leaf _ rfl rfl rfl ⟨hk, by simp [he, scalarOf]⟩
      | float k => simp only [he] at h; cases h; exact leaf _ rfl rfl rfl ⟨hk, by simp [he, scalarOf]⟩
      | interface => simp only [he] at h; exact pl _ h
      | array => simp only [he] at h; exact pl _ h
      | slice => simp only [he] at h; exact pl _ h
      | map => simp only [he] at h; exact pl _ h
      | pointer => simp only [he] at h; exact pl _ h
      | other => simp only [he] at h; exact pl _ h

end

end Verif.Proof.Descriptors

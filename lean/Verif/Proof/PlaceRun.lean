import Verif.Proof.Place
import Verif.Proof.Unescape
/-!
# Runs of the machine on the same document written differently
-/
namespace Verif.Proof.Place
open Verif.Model Verif.Big Verif.Spec Verif.Proof

variable {K S : Bytes → Bytes → Prop} {P : JVal → JVal → Prop}

/-- The same program on another text. -/
abbrev other (pr : Prog) (src' : Bytes) (toks' : List Token) : Prog := { pr with src := src', toks := toks' }

/-- `UnmarshalJSON` of the type does not tell related values apart. -/
def Ignores (P : JVal → JVal → Prop) (K S : Bytes → Bytes → Prop) (x : Ext) (src src' : Bytes) (rt : TypeId) : Prop :=
  ∀ old v v', Wf src v → Wf src' v' → Respelled K S src src' v v' → P v v' ∨ (∃ a b, S a b) → x.unmarshalJSON rt old (text src v.index v.stop) = x.unmarshalJSON rt old (text src' v'.index v'.stop)

/-- Both token arrays come from the same document. -/
structure Sm (P : JVal → JVal → Prop) (K S : Bytes → Bytes → Prop) (pr : Prog) (src' : Bytes) (toks' : List Token) : Prop where
  zip : Zip (TR K S pr.src src') pr.toks toks'
  sub : ∀ (i : Nat) t, pr.toks[i]? = some t → Con t → SubAt P K S pr.src src' i (pr.toks.drop i) (toks'.drop i)
  json : ∀ f ∈ pr.frames, f.type = .jsonUnmarshaler → ∀ rt, f.rtype = some rt → Ignores P K S pr.x pr.src src' rt
  keys : ∀ a b, K a b → pr.x.unescStr a = pr.x.unescStr b ∧ ∀ o, pr.options = some o → keyName o a = keyName o b
  mapKeys : ∀ a b, K a b → ∀ (i : Nat) f fk, pr.frames[i]? = some f → (f.type = .map ∨ f.type = .mapRecur) → pr.frames[i + 1]? = some fk → mapKeyOf pr.x fk a = mapKeyOf pr.x fk b
  strs : ∀ a b, S a b → pr.x.unescStr a = pr.x.unescStr b ∧ ∀ f ∈ pr.frames, onString pr.x f.type a = onString pr.x f.type b

/-- First bytes of corresponding tokens. -/
def Pos (toks toks' : List Token) (i i' : Nat) : Prop := ∃ (k : Nat) (t t' : Token), toks[k]? = some t ∧ toks'[k]? = some t' ∧ i = t.index ∧ i' = t'.index

/-- Outcomes that differ in positions only. -/
def OR (toks toks' : List Token) : Out → Out → Prop
  | .run s, .run s' => s = s'
  | .done s, .done s' => s = s'
  | .err i e s, .err i' e' s' => Pos toks toks' i i' ∧ e = e' ∧ s = s'
  | .crash, .crash => True
  | _, _ => False

theorem OR.refl {toks toks' : List Token} {o : Out} (h : ∀ i e s, o ≠ .err i e s) : OR toks toks' o o := by
  cases o with
  | run => rfl
  | done => rfl
  | err i e s => exact absurd rfl (h i e s)
  | crash => trivial

theorem pos_of {toks toks' : List Token} {k : Nat} {t t' : Token} (h : toks[k]? = some t) (h' : toks'[k]? = some t') : Pos toks toks' t.index t'.index := ⟨k, t, t', h, h', rfl, rfl⟩

theorem exec_or {pr : Prog} {src' : Bytes} {toks' : List Token} {s : St} {f : Frame} {t t' : Token} (hp : Pos pr.toks toks' t.index t'.index) (a : Act) :
    OR pr.toks toks' (exec pr s f t a) (exec (other pr src' toks') s f t' a) := by
  cases a with
  | store n c => simp only [exec]; cases writeSeg s.mem s.p (seg n c) <;> first | trivial | rfl
  | clear n => simp only [exec]; cases writeSeg s.mem s.p (zeros n) <;> first | trivial | rfl
  | nop => rfl
  | text b =>
    simp only [exec]
    cases f.ptrImpl <;> cases f.rtype <;> cases readSeg s.mem s.p f.size <;> try trivial
    rename_i rt old
    simp only
    cases writeSeg s.mem s.p (fit f.size (pr.x.unmarshalText rt old b).1) with
    | none => trivial
    | some m =>
      simp only
      cases (pr.x.unmarshalText rt old b).2 with
      | none => rfl
      | some e => exact ⟨hp, rfl, rfl⟩
  | toPtr => rfl
  | toJSON => rfl
  | err e => exact ⟨hp, rfl, rfl⟩
  | crash => trivial

theorem not_con {t : Token} {ty : TokType} (h : t.type = ty) (h1 : ty ≠ .array) (h2 : ty ≠ .object) : ¬ Con t := by
  rintro (h' | h') <;> rw [h] at h' <;> contradiction

theorem StrR.unesc {R : Bytes → Bytes → Prop} {x : Ext} {src src' : Bytes} {i e i' e' : Nat} (hR : ∀ a b, R a b → x.unescStr a = x.unescStr b) (h : StrR R src src' i e i' e') :
    (slice src (i + 1) (e - 1)).bind x.unescStr = (slice src' (i' + 1) (e' - 1)).bind x.unescStr := by
  obtain ⟨a, b, h1, h2, h3⟩ := h.inside
  rw [h1, h2]
  rcases h3 with rfl | h3
  · rfl
  · exact hR a b h3

theorem elemOf_eq {x : Ext} {src src' : Bytes} {k : SKind} {t t' : Token} (hS : ∀ a b, S a b → x.unescStr a = x.unescStr b) (h : TR K S src src' t t') : elemOf x src k t = elemOf x src' k t' := by
  unfold elemOf
  rw [← h.type]
  cases ht : t.type <;> simp only
  · rw [h.whole (not_con ht (by simp) (by simp)) (by simp [ht]) (by simp [ht])]
  · rw [h.whole (not_con ht (by simp) (by simp)) (by simp [ht]) (by simp [ht])]
  · rw [StrR.unesc hS (h.str ht)]

/-- Results of the element loop. -/
def SR (toks toks' : List Token) : SliceRes → SliceRes → Prop
  | .ok a, .ok a' => a = a'
  | .err i e a, .err i' e' a' => (∃ (k : Nat) (t t' : Token), toks[k]? = some t ∧ toks'[k]? = some t' ∧ i = t.index ∧ i' = t'.index) ∧ e = e' ∧ a = a'
  | .crash, .crash => True
  | _, _ => False

theorem SR.succ {t t' : Token} {ts ts' : List Token} {r r' : SliceRes} (h : SR ts ts' r r') : SR (t :: ts) (t' :: ts') r r' := by
  cases r <;> cases r' <;> first | exact h | skip
  obtain ⟨⟨k, u, u', h1, h2, h3⟩, h4⟩ := h
  exact ⟨⟨k + 1, u, u', by simpa using h1, by simpa using h2, h3⟩, h4⟩

theorem sliceElems_or {x : Ext} {src src' : Bytes} {k : SKind} (hS : ∀ a b, S a b → x.unescStr a = x.unescStr b) : ∀ (ts ts' : List Token) (i : Nat) (arr : Block), Zip (TR K S src src') ts ts' →
    SR ts ts' (sliceElems x src k ts i arr) (sliceElems x src' k ts' i arr)
  | [], [], i, arr, _ => rfl
  | [], _ :: _, i, arr, h => by have := h.1; simp at this
  | _ :: _, [], i, arr, h => by have := h.1; simp at this
  | t :: ts, t' :: ts', i, arr, h => by
    obtain ⟨h1, h2⟩ := zip_uncons h
    simp only [sliceElems, elemOf_eq (x := x) (k := k) hS h1]
    cases elemOf x src' k t' with
    | store n c =>
      simp only
      cases blit arr (i * k.bytes x) (seg n c) with
      | none => trivial
      | some arr => exact (sliceElems_or hS ts ts' _ _ h2).succ
    | clear n =>
      simp only
      cases blit arr (i * k.bytes x) (zeros n) with
      | none => trivial
      | some arr => exact (sliceElems_or hS ts ts' _ _ h2).succ
    | err e => exact ⟨⟨0, t, t', rfl, rfl, rfl, rfl⟩, rfl, rfl⟩
    | nop => trivial
    | text b => trivial
    | toPtr => trivial
    | toJSON => trivial
    | crash => trivial

theorem onSliceOf_or {pr : Prog} {src' : Bytes} {toks' : List Token} (h : Sm P K S pr src' toks') {s : St} {t t' : Token} (ht : TR K S pr.src src' t t') (hc : Con t) (k : SKind) :
    OR pr.toks toks' (onSliceOf pr s t k) (onSliceOf (other pr src' toks') s t' k) := by
  unfold onSliceOf
  simp only [← ht.elements, ← ht.con hc, ← h.zip.1]
  by_cases hn : t.elements < 1
  · rw [if_pos hn, if_pos hn]
    cases writeSeg s.mem s.p (seg (3 * pr.x.W) (.slice 0 0 [])) <;> first | trivial | rfl
  · rw [if_neg hn, if_neg hn]
    cases sliceHdr (readCell s.mem s.p) with
    | none => trivial
    | some lca =>
      obtain ⟨l, c, a⟩ := lca
      simp only
      by_cases hb : t.end_ < s.ti + 1 ∨ pr.toks.length < t.end_
      · rw [if_pos hb, if_pos hb]; trivial
      · rw [if_neg hb, if_neg hb]
        have hz : Zip (TR K S pr.src src') ((pr.toks.take t.end_).drop (s.ti + 1)) ((toks'.take t.end_).drop (s.ti + 1)) := zip_drop (zip_take h.zip _) _
        have hpos : ∀ i i' : Nat, (∃ (j : Nat) (u u' : Token), ((pr.toks.take t.end_).drop (s.ti + 1))[j]? = some u ∧ ((toks'.take t.end_).drop (s.ti + 1))[j]? = some u' ∧ i = u.index ∧ i' = u'.index) →
            Pos pr.toks toks' i i' := by
          rintro i i' ⟨j, u, u', h1, h2, h3, h4⟩
          rw [List.getElem?_drop, List.getElem?_take] at h1 h2
          split at h1
          · rename_i hlt; rw [if_pos hlt] at h2; exact ⟨_, u, u', h1, h2, h3, h4⟩
          · cases h1
        rw [← hz.1]
        by_cases hcn : c < t.elements
        · rw [if_pos hcn, if_pos hcn]
          have := sliceElems_or (x := pr.x) (k := k) (fun a b hab => (h.strs a b hab).1) _ _ 0 (zeros (t.elements * k.bytes pr.x)) hz
          revert this
          generalize sliceElems pr.x pr.src k _ 0 (zeros (t.elements * k.bytes pr.x)) = r
          generalize sliceElems pr.x src' k _ 0 (zeros (t.elements * k.bytes pr.x)) = r'
          intro this
          cases r <;> cases r' <;> first | exact this.elim | trivial | skip
          · cases (this : _ = _)
            rename_i arr
            simp only
            cases writeSeg s.mem s.p (seg (3 * pr.x.W) (.slice t.elements t.elements arr)) <;> first | trivial | rfl
          · exact ⟨hpos _ _ this.1, this.2.1, rfl⟩
        · rw [if_neg hcn, if_neg hcn]
          have := sliceElems_or (x := pr.x) (k := k) (fun a b hab => (h.strs a b hab).1) _ _ 0 (a.take (t.elements * k.bytes pr.x)) hz
          revert this
          generalize sliceElems pr.x pr.src k _ 0 (a.take (t.elements * k.bytes pr.x)) = r
          generalize sliceElems pr.x src' k _ 0 (a.take (t.elements * k.bytes pr.x)) = r'
          intro this
          cases r <;> cases r' <;> first | exact this.elim | trivial | skip
          · cases (this : _ = _)
            rename_i arr
            simp only
            cases writeSeg s.mem s.p (seg (3 * pr.x.W) (.slice t.elements c (arr ++ a.drop (t.elements * k.bytes pr.x)))) <;> first | trivial | rfl
          · rename_i i e arr i' e' arr'
            obtain ⟨h1, rfl, rfl⟩ := this
            simp only
            cases writeSeg s.mem s.p (seg (3 * pr.x.W) (.slice l c (arr ++ a.drop (t.elements * k.bytes pr.x)))) with
            | none => trivial
            | some m => exact ⟨hpos _ _ h1, rfl, rfl⟩

/-- Closes a goal `OR _ _ o o` where `o` contains no error. -/
local macro "or_refl" : tactic => `(tactic| (refine OR.refl ?_; intro i e s' hh; (repeat' split at hh) <;> cases hh))

/-! ## `any` -/

mutual
theorem anyOf_same {x : Ext} {src src' : Bytes} (hK : ∀ a b, K a b → x.unescStr a = x.unescStr b) (hS : ∀ a b, S a b → x.unescStr a = x.unescStr b) : ∀ (v v' : JVal), Wf src v → Wf src' v' → Respelled K S src src' v v' → anyOf x src v = anyOf x src' v'
  | .null _ _, .null _ _, _, _, _ => rfl
  | .bool b _ _, .bool b' _ _, _, _, h => by cases (h : b = b'); rfl
  | .num b i e, .num b' i' e', hw, hw', h => by
    simp only [anyOf, Doc.slice_text hw.1 hw.2.1, Doc.slice_text hw'.1 hw'.2.1, h.2]
  | .str i e, .str i' e', hw, hw', h => by simp only [anyOf, StrR.unesc hS ⟨hw, hw', h⟩]
  | .arr _ vs _, .arr _ vs' _, hw, hw', h => by simp only [anyOf, anyOfL_same hK hS vs vs' hw.2.2.2.2 hw'.2.2.2.2 h]
  | .obj _ ms _, .obj _ ms' _, hw, hw', h => by simp only [anyOf, anyOfM_same hK hS ms ms' [] hw.2.2.2.2 hw'.2.2.2.2 h]
theorem anyOfL_same {x : Ext} {src src' : Bytes} (hK : ∀ a b, K a b → x.unescStr a = x.unescStr b) (hS : ∀ a b, S a b → x.unescStr a = x.unescStr b) : ∀ (vs vs' : List JVal), WfL src vs → WfL src' vs' → RespelledL K S src src' vs vs' → anyOfL x src vs = anyOfL x src' vs'
  | [], [], _, _, _ => rfl
  | v :: vs, v' :: vs', hw, hw', h => by
    simp only [anyOfL, anyOf_same hK hS v v' hw.1 hw'.1 h.1, anyOfL_same hK hS vs vs' hw.2 hw'.2 h.2]
theorem anyOfM_same {x : Ext} {src src' : Bytes} (hK : ∀ a b, K a b → x.unescStr a = x.unescStr b) (hS : ∀ a b, S a b → x.unescStr a = x.unescStr b) : ∀ (ms ms' : List ((Nat × Nat) × JVal)) (m : List (Str × AnyVal)), WfM src ms → WfM src' ms' → RespelledM K S src src' ms ms' →
    anyOfM x src m ms = anyOfM x src' m ms'
  | [], [], m, _, _, _ => rfl
  | ((i, e), v) :: ms, ((i', e'), v') :: ms', m, hw, hw', h => by
    have := fun m => anyOfM_same (x := x) hK hS ms ms' m hw.2.2 hw'.2.2 h.2.2
    obtain ⟨a, b, h1, h2, h3⟩ := StrR.inside ⟨hw.1, hw'.1, h.1⟩
    have h4 : x.unescStr a = x.unescStr b := by
      rcases h3 with rfl | h3
      · rfl
      · exact hK a b h3
    simp only [anyOfM, anyOf_same hK hS v v' hw.2.1 hw'.2.1 h.2.1, h1, h2, h4, this]
end

theorem decodeAny_or {pr : Prog} {src' : Bytes} {toks' : List Token} (h : Sm P K S pr src' toks') {i : Nat} {t : Token} (ht : pr.toks[i]? = some t) (hc : Con t) :
    ∃ r s s', s.length = s'.length ∧ decodeAny pr.x pr.src (pr.toks.length + 1) (pr.toks.drop i) = Any.outA s r ∧ decodeAny pr.x src' (toks'.length + 1) (toks'.drop i) = Any.outA s' r := by
  obtain ⟨w, w', s, s', hw, hw', hs, hp, h1, h2⟩ := h.sub i t ht hc
  have hl := same_len w w' i i hs
  have l1 : (pr.toks.drop i).length = (flatten i w ++ s).length := by rw [h1]
  have l2 : (toks'.drop i).length = (flatten i w' ++ s').length := by rw [h2]
  have l3 := h.zip.1
  simp only [List.length_drop, List.length_append] at l1 l2
  have hp := Any.flatten_pos i w
  refine ⟨anyOf pr.x pr.src w, s, s', by omega, ?_, ?_⟩
  · rw [h1, Any.decodeAny_flatten _ _ _ _ _ _ (by omega)]
  · rw [h2, Any.decodeAny_flatten _ _ _ _ _ _ (by omega), anyOf_same (fun a b hab => (h.keys a b hab).1) (fun a b hab => (h.strs a b hab).1) w w' hw hw' hs]

theorem onAny_or {pr : Prog} {src' : Bytes} {toks' : List Token} (h : Sm P K S pr src' toks') {s : St} {t t' : Token} (ht : pr.toks[s.ti]? = some t) (ht' : toks'[s.ti]? = some t') (hc : Con t) :
    OR pr.toks toks'
      (match decodeAny pr.x pr.src (pr.toks.length + 1) (pr.toks.drop s.ti) with
      | .crash => .crash
      | .err _ => .err t.index .unexpectedValue s
      | .ok v tail =>
        match writeSeg s.mem s.p (seg (2 * pr.x.W) (.any v)) with
        | none => .crash
        | some m => .run { s with mem := m, ti := pr.toks.length - tail.length, pc := .valEnd })
      (match decodeAny pr.x src' (toks'.length + 1) (toks'.drop s.ti) with
      | .crash => .crash
      | .err _ => .err t'.index .unexpectedValue s
      | .ok v tail =>
        match writeSeg s.mem s.p (seg (2 * pr.x.W) (.any v)) with
        | none => .crash
        | some m => .run { s with mem := m, ti := toks'.length - tail.length, pc := .valEnd }) := by
  obtain ⟨r, tl, tl', hl, h1, h2⟩ := decodeAny_or h ht hc
  rw [h1, h2]
  cases r with
  | none => trivial
  | some r =>
    cases r with
    | error e => exact ⟨pos_of ht ht', rfl, rfl⟩
    | ok v =>
      simp only [Any.outA, hl, h.zip.1]
      cases writeSeg s.mem s.p (seg (2 * pr.x.W) (.any v)) <;> first | trivial | rfl

theorem onArray_or {pr : Prog} {src' : Bytes} {toks' : List Token} (h : Sm P K S pr src' toks') {s : St} {f : Frame} {t t' : Token} (ht : pr.toks[s.ti]? = some t) (ht' : toks'[s.ti]? = some t')
    (hc : Con t) : OR pr.toks toks' (onArray pr s f t) (onArray (other pr src' toks') s f t') := by
  have hr := h.zip.2 _ _ _ ht ht'
  have hpos := pos_of ht ht'
  unfold onArray
  cases f.type with
  | any => exact onAny_or h ht ht' hc
  | sliceOf k => exact onSliceOf_or h hr hc k
  | arrayLen0 => simp only [← hr.con hc]; or_refl
  | array => simp only [← hr.elements]; or_refl
  | slice => simp only [← hr.elements]; or_refl
  | sliceRecur => simp only [← hr.elements]; or_refl
  | sliceEmptyStruct => simp only [← hr.elements, ← hr.con hc]; or_refl
  | ptr => rfl
  | jsonUnmarshaler => rfl
  | _ => exact ⟨hpos, rfl, rfl⟩

/-! ## Objects -/

/-- Results of the loop over a `map[string]string`. -/
def MR (toks toks' : List Token) : Option (Except (Nat × Err) (List (Key × Block))) → Option (Except (Nat × Err) (List (Key × Block))) → Prop
  | none, none => True
  | some (.ok m), some (.ok m') => m = m'
  | some (.error (i, e)), some (.error (i', e')) => Pos toks toks' i i' ∧ e = e'
  | _, _ => False

theorem MR.more {p p' l l' : List Token} {r r' : Option (Except (Nat × Err) (List (Key × Block)))} (hp : p.length = p'.length) (h : MR l l' r r') : MR (p ++ l) (p' ++ l') r r' := by
  rcases r with _ | ⟨i, e⟩ | m <;> rcases r' with _ | ⟨i', e'⟩ | m' <;> first | exact h | skip
  obtain ⟨⟨k, t, t', h1, h2, h3⟩, h4⟩ := h
  exact ⟨⟨p.length + k, t, t', by rw [List.getElem?_append_right (by omega)]; simpa using h1, by rw [List.getElem?_append_right (by omega)]; simpa [hp] using h2, h3⟩, h4⟩

theorem MR.append {q q' l l' : List Token} {r r' : Option (Except (Nat × Err) (List (Key × Block)))} (h : MR l l' r r') : MR (l ++ q) (l' ++ q') r r' := by
  rcases r with _ | ⟨i, e⟩ | m <;> rcases r' with _ | ⟨i', e'⟩ | m' <;> first | exact h | skip
  obtain ⟨⟨k, t, t', h1, h2, h3⟩, h4⟩ := h
  have l1 := (List.getElem?_eq_some_iff.1 h1).1
  have l2 := (List.getElem?_eq_some_iff.1 h2).1
  exact ⟨⟨k, t, t', by rw [List.getElem?_append_left l1]; exact h1, by rw [List.getElem?_append_left l2]; exact h2, h3⟩, h4⟩

theorem mapSS_or {x : Ext} {src src' : Bytes} (hK : ∀ a b, K a b → x.unescStr a = x.unescStr b) (hS : ∀ a b, S a b → x.unescStr a = x.unescStr b) : ∀ (ms ms' : List ((Nat × Nat) × JVal)) (ti : Nat) (m : List (Key × Block)), WfM src ms → WfM src' ms' → RespelledM K S src src' ms ms' →
    MR (flattenM ti ms) (flattenM ti ms') (mapSSB x src ms m) (mapSSB x src' ms' m)
  | [], [], ti, m, _, _, _ => rfl
  | ((i, e), v) :: ms, ((i', e'), v') :: ms', ti, m, hw, hw', hs => by
    have hlen := same_len v v' (ti + 1) (ti + 1) hs.2.1
    have hk := StrR.unesc hK ⟨hw.1, hw'.1, hs.1⟩
    have hrest := fun m => MR.more (p := ⟨.key, i, e, 0⟩ :: flatten (ti + 1) v) (p' := ⟨.key, i', e', 0⟩ :: flatten (ti + 1) v') (by simp [hlen])
      (mapSS_or (x := x) hK hS ms ms' (ti + 1 + (flatten (ti + 1) v).length) m hw.2.2 hw'.2.2 hs.2.2)
    have hbad : Pos (flattenM ti (((i, e), v) :: ms)) (flattenM ti (((i', e'), v') :: ms')) v.index v'.index := by
      obtain ⟨t, ts, h1, -⟩ := Any.head_type_arr (ti + 1) v
      obtain ⟨t', ts', h2, -⟩ := Any.head_type_arr (ti + 1) v'
      refine ⟨1, t, t', by simp [flattenM, h1], by simp [flattenM, h2], ?_, ?_⟩
      · cases v <;> simp only [flatten, List.cons.injEq] at h1 <;> rw [← h1.1] <;> rfl
      · cases v' <;> simp only [flatten, List.cons.injEq] at h2 <;> rw [← h2.1] <;> rfl
    simp only [flattenM] at hbad ⊢
    rw [← hlen] at hbad ⊢
    cases v <;> cases v' <;> try exact (hs.2.1 : False).elim
    · simp only [mapSSB, hk]
      cases (slice src' (i' + 1) (e' - 1)).bind x.unescStr with
      | none => trivial
      | some ks => exact hrest _
    · exact ⟨hbad, rfl⟩
    · exact ⟨hbad, rfl⟩
    · rename_i vi ve vi' ve'
      simp only [mapSSB, hk, StrR.unesc hS ⟨hw.2.1, hw'.2.1, hs.2.1⟩]
      cases (slice src' (i' + 1) (e' - 1)).bind x.unescStr <;> cases (slice src' (vi' + 1) (ve' - 1)).bind x.unescStr <;> first | trivial | exact hrest _
    · exact ⟨hbad, rfl⟩
    · exact ⟨hbad, rfl⟩

theorem onObject_or {pr : Prog} {src' : Bytes} {toks' : List Token} (h : Sm P K S pr src' toks') {s : St} {f : Frame} {t t' : Token} (ht : pr.toks[s.ti]? = some t) (ht' : toks'[s.ti]? = some t')
    (hty : t.type = .object) : OR pr.toks toks' (onObject pr s f t) (onObject (other pr src' toks') s f t') := by
  have hr := h.zip.2 _ _ _ ht ht'
  have hpos := pos_of ht ht'
  have hc : Con t := .inr hty
  unfold onObject
  cases f.type with
  | any => exact onAny_or h ht ht' hc
  | emptyStruct => simp only [← hr.con hc]; rfl
  | ptrRecur => simp only [← hr.elements]; or_refl
  | mapRecur => simp only [← hr.elements]; or_refl
  | map => simp only [← hr.elements]; or_refl
  | struct => simp only [← hr.elements]; or_refl
  | structRecur => simp only [← hr.elements]; or_refl
  | mapStringString =>
    simp only [← hr.elements, ← hr.con hc, ← h.zip.1]
    by_cases h0 : t.elements = 0
    · rw [if_pos h0, if_pos h0]; or_refl
    · rw [if_neg h0, if_neg h0]
      by_cases hb : pr.toks.length ≤ t.end_
      · rw [if_pos hb, if_pos hb]; trivial
      · rw [if_neg hb, if_neg hb]
        obtain ⟨w, w', r, r', hw, hw', hs, hp, h1, h2⟩ := h.sub _ _ ht hc
        have hhead : ∃ i ms k, w = .obj i ms k := by
          have : (flatten s.ti w ++ r)[0]? = some t := by rw [← h1, List.getElem?_drop]; exact ht
          cases w with
          | obj i ms k => exact ⟨i, ms, k, rfl⟩
          | bool b => simp [flatten] at this; rw [← this] at hty; cases b <;> simp at hty
          | num b => simp [flatten] at this; rw [← this] at hty; cases b <;> simp at hty
          | _ => simp [flatten] at this; rw [← this] at hty; simp at hty
        obtain ⟨a, ms, k, rfl⟩ := hhead
        cases w' <;> try exact (hs : False).elim
        rename_i a' ms' k'
        have hend : t.end_ = s.ti + 1 + (flattenM (s.ti + 1) ms).length := by
          have : (flatten s.ti (.obj a ms k) ++ r)[0]? = some t := by rw [← h1, List.getElem?_drop]; exact ht
          simp [flatten] at this
          rw [← this]
        have hin : ∀ (l : List Token) (ms : List ((Nat × Nat) × JVal)) (a k : Nat) (r : List Token), l.drop s.ti = flatten s.ti (.obj a ms k) ++ r →
            t.end_ = s.ti + 1 + (flattenM (s.ti + 1) ms).length → (l.take t.end_).drop (s.ti + 1) = flattenM (s.ti + 1) ms := by
          intro l ms a k r hl he
          rw [List.drop_take]
          have : l.drop (s.ti + 1) = flattenM (s.ti + 1) ms ++ (⟨.objectEnd, k, k + 1, 0⟩ :: r) := by
            rw [← List.drop_drop, hl]; simp [flatten]
          rw [this, he, show s.ti + 1 + (flattenM (s.ti + 1) ms).length - (s.ti + 1) = (flattenM (s.ti + 1) ms).length by omega, List.take_left]
        have hend' : t.end_ = s.ti + 1 + (flattenM (s.ti + 1) ms').length := by rw [hend, same_lenM ms ms' _ (s.ti + 1) hs]
        rw [hin _ _ _ _ _ h1 hend, hin _ _ _ _ _ h2 hend', Sim.mapSS_flatten, Sim.mapSS_flatten]
        have := mapSS_or (x := pr.x) (fun a b hab => (h.keys a b hab).1) (fun a b hab => (h.strs a b hab).1) ms ms' (s.ti + 1) [] hw.2.2.2.2 hw'.2.2.2.2 hs
        revert this
        have e1 : ∀ j u, (flattenM (s.ti + 1) ms)[j]? = some u → pr.toks[s.ti + 1 + j]? = some u := by
          intro j u hj
          have l1 := (List.getElem?_eq_some_iff.1 hj).1
          have : (pr.toks.drop s.ti)[j + 1]? = some u := by rw [h1]; simp [flatten, List.getElem?_append_left l1, hj, List.append_assoc]
          rw [List.getElem?_drop] at this
          rwa [show s.ti + 1 + j = s.ti + (j + 1) by omega]
        have e2 : ∀ j u, (flattenM (s.ti + 1) ms')[j]? = some u → toks'[s.ti + 1 + j]? = some u := by
          intro j u hj
          have l1 := (List.getElem?_eq_some_iff.1 hj).1
          have : (toks'.drop s.ti)[j + 1]? = some u := by rw [h2]; simp [flatten, List.getElem?_append_left l1, hj, List.append_assoc]
          rw [List.getElem?_drop] at this
          rwa [show s.ti + 1 + j = s.ti + (j + 1) by omega]
        generalize mapSSB pr.x pr.src ms [] = q
        generalize mapSSB pr.x src' ms' [] = q'
        intro this
        rcases q with _ | ⟨i, e⟩ | m <;> rcases q' with _ | ⟨i', e'⟩ | m' <;> try exact this.elim
        · trivial
        · obtain ⟨⟨j, u, u', g1, g2, g3⟩, rfl⟩ := this
          exact ⟨⟨_, u, u', e1 j u g1, e2 j u' g2, g3⟩, rfl, rfl⟩
        · cases (this : _ = _)
          simp only
          cases writeSeg s.mem s.p (seg pr.x.W (.map m)) <;> first | trivial | rfl
  | ptr => rfl
  | jsonUnmarshaler => rfl
  | _ => exact ⟨hpos, rfl, rfl⟩

/-! ## Keys -/

/-- Results of the loop over keys. -/
def KR (toks toks' : List Token) : ScanRes → ScanRes → Prop
  | .found a b, .found a' b' => a = a' ∧ b = b'
  | .unknown i, .unknown i' => Pos toks toks' i i'
  | .brk a, .brk a' => a = a'
  | .crash, .crash => True
  | _, _ => False

theorem KR.succ {t t' : Token} {ts ts' : List Token} {r r' : ScanRes} (h : KR ts ts' r r') : KR (t :: ts) (t' :: ts') r r' := by
  cases r <;> cases r' <;> first | exact h | skip
  obtain ⟨k, u, u', h1, h2, h3⟩ := h
  exact ⟨k + 1, u, u', by simpa using h1, by simpa using h2, h3⟩

theorem scanKeys_or {x : Ext} {src src' : Bytes} {o : Options} {fields : List (Bytes × Nat)} (hK : ∀ a b, K a b → keyName o a = keyName o b) : ∀ (ts ts' : List Token) (skip : Option Nat) (ti : Nat), Zip (TR K S src src') ts ts' →
    (skip = none → ∀ t, ts.head? = some t → t.type = .key) → KR ts ts' (scanKeys x src o fields skip ts ti) (scanKeys x src' o fields skip ts' ti)
  | [], [], _, _, _, _ => trivial
  | [], _ :: _, _, _, h, _ => by have := h.1; simp at this
  | _ :: _, [], _, _, h, _ => by have := h.1; simp at this
  | t :: ts, t' :: ts', skip, ti, h, hk => by
    obtain ⟨h1, h2⟩ := zip_uncons h
    have key : t.type = .key → KR (t :: ts) (t' :: ts')
        (match (slice src (t.index + 1) (t.end_ - 1)).bind (keyName o) with
        | none => .crash
        | some name =>
          match findField x o fields name with
          | some fi => .found ti fi
          | none =>
            if o.disallowUnknownFields then .unknown t.index
            else scanKeys x src o fields (some 0) ts (ti + 1))
        (match (slice src' (t'.index + 1) (t'.end_ - 1)).bind (keyName o) with
        | none => .crash
        | some name =>
          match findField x o fields name with
          | some fi => .found ti fi
          | none =>
            if o.disallowUnknownFields then .unknown t'.index
            else scanKeys x src' o fields (some 0) ts' (ti + 1)) := by
      intro hc
      have he : (slice src (t.index + 1) (t.end_ - 1)).bind (keyName o) = (slice src' (t'.index + 1) (t'.end_ - 1)).bind (keyName o) := by
        obtain ⟨a, b, g1, g2, g3⟩ := (h1.key hc).inside
        rw [g1, g2]
        rcases g3 with rfl | g3
        · rfl
        · exact hK a b g3
      rw [he]
      cases (slice src' (t'.index + 1) (t'.end_ - 1)).bind (keyName o) with
      | none => trivial
      | some name =>
        simp only
        cases findField x o fields name with
        | some fi => exact ⟨rfl, rfl⟩
        | none =>
          simp only
          by_cases hd : o.disallowUnknownFields = true
          · rw [if_pos hd, if_pos hd]; exact ⟨0, t, t', rfl, rfl, rfl, rfl⟩
          · rw [if_neg hd, if_neg hd]; exact (scanKeys_or hK ts ts' (some 0) _ h2 (fun h => by cases h)).succ
    have hrec : ∀ l, KR (t :: ts) (t' :: ts') (scanKeys x src o fields (some l) ts (ti + 1)) (scanKeys x src' o fields (some l) ts' (ti + 1)) :=
      fun l => (scanKeys_or hK ts ts' (some l) _ h2 (fun h => by cases h)).succ
    cases skip with
    | none => simp only [scanKeys]; exact key (hk rfl t rfl)
    | some l =>
      simp only [scanKeys, ← h1.type]
      cases hty : t.type <;> simp only <;> try exact hrec _
      · by_cases hl : l ≤ 1
        · rw [if_pos hl, if_pos hl]; rfl
        · rw [if_neg hl, if_neg hl]; exact hrec _
      · by_cases hl : l < 1
        · rw [if_pos hl, if_pos hl]; exact key hty
        · rw [if_neg hl, if_neg hl]; exact hrec _

theorem onKey_or {pr : Prog} {src' : Bytes} {toks' : List Token} (h : Sm P K S pr src' toks') {s : St} {f : Frame} {t t' : Token} (ht : pr.toks[s.ti]? = some t) (ht' : toks'[s.ti]? = some t')
    (hc : t.type = .key) (hf : pr.frames[s.si]? = some f) : OR pr.toks toks' (onKey pr s f t) (onKey (other pr src' toks') s f t') := by
  have hr := h.zip.2 _ _ _ ht ht'
  have hpos := pos_of ht ht'
  have hstruct : OR pr.toks toks'
      (match pr.options with
      | none => .crash
      | some o =>
        match scanKeys pr.x pr.src o f.fields none (pr.toks.drop s.ti) s.ti with
        | .crash => .crash
        | .unknown i => .err i .unknownField s
        | .brk ti => .run { s with ti := ti + 1 }
        | .found ti fi => .run { s with ti := ti + 1, si := fi })
      (match pr.options with
      | none => .crash
      | some o =>
        match scanKeys pr.x src' o f.fields none (toks'.drop s.ti) s.ti with
        | .crash => .crash
        | .unknown i => .err i .unknownField s
        | .brk ti => .run { s with ti := ti + 1 }
        | .found ti fi => .run { s with ti := ti + 1, si := fi }) := by
    cases ho : pr.options with
    | none => trivial
    | some o =>
      simp only
      have := scanKeys_or (x := pr.x) (o := o) (fields := f.fields) (fun a b hab => (h.keys a b hab).2 o ho) _ _ none s.ti (zip_drop h.zip s.ti) (fun _ u hu => by
        rw [List.head?_drop, ht] at hu; cases hu; exact hc)
      revert this
      generalize scanKeys pr.x pr.src o f.fields none (pr.toks.drop s.ti) s.ti = r
      generalize scanKeys pr.x src' o f.fields none (toks'.drop s.ti) s.ti = r'
      intro this
      cases r <;> cases r' <;> try exact this.elim
      · obtain ⟨rfl, rfl⟩ := this; rfl
      · obtain ⟨k, u, u', g1, g2, g3⟩ := this
        rw [List.getElem?_drop] at g1 g2
        exact ⟨⟨_, u, u', g1, g2, g3⟩, rfl, rfl⟩
      · cases (this : _ = _); rfl
      · trivial
  have hmap : (f.type = .map ∨ f.type = .mapRecur) → OR pr.toks toks'
      (match slice pr.src (t.index + 1) (t.end_ - 1), pr.frames[s.si + 1]?, s.p with
      | some key, some fk, .at ad =>
        match mapKeyOf pr.x fk key with
        | none => .crash
        | some (.error e) => .err t.index e s
        | some (.ok k?) =>
          let mp : Option (Block × Ptr) := match k? with
            | none => some (s.mem, .nil)
            | some k => (mapAssign pr.x.W f fk s.mem ad k).map fun m => (m, .at (ad.into (.entry k)))
          match mp with
          | none => .crash
          | some (m, pNew) =>
            let si := if f.type = .mapRecur then f.recurFrame else s.si + 2
            match pr.frames[si]? with
            | none => .crash
            | some fv =>
              let d := upd s.dyn si fun y => { y with dest := pNew }
              if fv.type = .struct ∨ fv.type = .structRecur then
                match writeSeg m pNew (zeros f.mapValueSize) with
                | none => .crash
                | some m => .run { s with mem := m, dyn := d, si := si, ti := s.ti + 1 }
              else .run { s with mem := m, dyn := d, si := si, ti := s.ti + 1 }
      | _, _, _ => .crash)
      (match slice src' (t'.index + 1) (t'.end_ - 1), pr.frames[s.si + 1]?, s.p with
      | some key, some fk, .at ad =>
        match mapKeyOf pr.x fk key with
        | none => .crash
        | some (.error e) => .err t'.index e s
        | some (.ok k?) =>
          let mp : Option (Block × Ptr) := match k? with
            | none => some (s.mem, .nil)
            | some k => (mapAssign pr.x.W f fk s.mem ad k).map fun m => (m, .at (ad.into (.entry k)))
          match mp with
          | none => .crash
          | some (m, pNew) =>
            let si := if f.type = .mapRecur then f.recurFrame else s.si + 2
            match pr.frames[si]? with
            | none => .crash
            | some fv =>
              let d := upd s.dyn si fun y => { y with dest := pNew }
              if fv.type = .struct ∨ fv.type = .structRecur then
                match writeSeg m pNew (zeros f.mapValueSize) with
                | none => .crash
                | some m => .run { s with mem := m, dyn := d, si := si, ti := s.ti + 1 }
              else .run { s with mem := m, dyn := d, si := si, ti := s.ti + 1 }
      | _, _, _ => .crash) := by
    intro hmt
    obtain ⟨a, b, g1, g2, g3⟩ := (hr.key hc).inside
    rw [g1, g2]
    · cases hfk : pr.frames[s.si + 1]? with
      | none => trivial
      | some fk =>
        have hmk : mapKeyOf pr.x fk a = mapKeyOf pr.x fk b := by
          rcases g3 with rfl | g3
          · rfl
          · exact h.mapKeys a b g3 _ f fk hf hmt hfk
        cases s.p with
        | nil => trivial
        | stale => trivial
        | «at» ad =>
          simp only [hmk]
          cases mapKeyOf pr.x fk b with
          | none => trivial
          | some r =>
            cases r with
            | error e => exact ⟨hpos, rfl, rfl⟩
            | ok k? => simp only; or_refl
  unfold onKey
  generalize hft : f.type = ft at hmap
  cases ft with
  | struct => exact hstruct
  | structRecur => exact hstruct
  | map => exact hmap (.inl rfl)
  | mapRecur => exact hmap (.inr rfl)
  | _ => exact ⟨hpos, rfl, rfl⟩

/-! ## The machine -/

theorem skipExtra_eq {src src' : Bytes} : ∀ (ts ts' : List Token) (l : Nat), Zip (TR K S src src') ts ts' → skipExtra l ts = skipExtra l ts'
  | [], [], _, _ => rfl
  | [], _ :: _, _, h => by have := h.1; simp at this
  | _ :: _, [], _, h => by have := h.1; simp at this
  | t :: ts, t' :: ts', l, h => by
    obtain ⟨h1, h2⟩ := zip_uncons h
    have := fun l => skipExtra_eq ts ts' l h2
    simp only [skipExtra, ← h1.type, this]

theorem onValEnd_or {pr : Prog} {src' : Bytes} {toks' : List Token} (h : Sm P K S pr src' toks') (s : St) (f : Frame) :
    OR pr.toks toks' (onValEnd pr s f) (onValEnd (other pr src' toks') s f) := by
  have : onValEnd (other pr src' toks') s f = onValEnd pr s f := by
    unfold onValEnd
    simp only [skipExtra_eq _ _ 1 (zip_drop h.zip s.ti)]
  rw [this]
  refine OR.refl fun i e s' => ?_
  unfold onValEnd
  simp only
  cases f.parent with
  | none => simp
  | some c =>
    rcases hc : pr.frames[c]? with _ | fc
    · simp [hc]
    · simp only [hc]
      cases fc.type <;> try (simp; done)
      simp only
      split
      · cases skipExtra 1 (pr.toks.drop s.ti) <;> simp
      · simp

theorem rawValue_or {pr : Prog} {src' : Bytes} {toks' : List Token} (h : Sm P K S pr src' toks') {i : Nat} {t t' : Token} (ht : pr.toks[i]? = some t) (ht' : toks'[i]? = some t') (hkey : t.type ≠ .key) :
    (rawValue pr i t = none ∧ rawValue (other pr src' toks') i t' = none) ∨
    ∃ raw raw' ti, rawValue pr i t = some (raw, ti) ∧ rawValue (other pr src' toks') i t' = some (raw', ti) ∧
      (raw = raw' ∨ ∃ w w', Wf pr.src w ∧ Wf src' w' ∧ Respelled K S pr.src src' w w' ∧ (P w w' ∨ ∃ a b, S a b) ∧ raw = text pr.src w.index w.stop ∧ raw' = text src' w'.index w'.stop) := by
  have hr := h.zip.2 _ _ _ ht ht'
  by_cases hc : Con t
  · obtain ⟨w, w', r, r', hw, hw', hs, hp, h1, h2⟩ := h.sub _ _ ht hc
    have hi : ∀ {l : List Token} {w : JVal} {r : List Token} {t : Token} {src : Bytes}, l.drop i = flatten i w ++ r → l[i]? = some t → Con t → Wf src w →
        ∃ te, l[t.end_]? = some te ∧ slice src t.index (te.index + 1) = some (text src w.index w.stop) := by
      intro l w r t src hl hlt hcon hw
      have h0 : (flatten i w ++ r)[0]? = some t := by rw [← hl, List.getElem?_drop]; exact hlt
      have hx := Doc.wf_extent hw
      cases w with
      | null => simp [flatten] at h0; subst h0; simp [Con] at hcon
      | str => simp [flatten] at h0; subst h0; simp [Con] at hcon
      | bool b => simp [flatten] at h0; subst h0; cases b <;> simp [Con] at hcon
      | num b => simp [flatten] at h0; subst h0; cases b <;> simp [Con] at hcon
      | arr a vs k =>
        simp [flatten] at h0; subst h0
        refine ⟨⟨.arrayEnd, k, k + 1, 0⟩, ?_, Doc.slice_text (Nat.le_succ_of_le (Nat.le_of_lt hw.1)) hx.2⟩
        have : (l.drop i)[1 + (flattenL (i + 1) vs).length]? = some ⟨.arrayEnd, k, k + 1, 0⟩ := by
          rw [hl]; simp [flatten, Nat.add_comm 1]
        rw [List.getElem?_drop] at this
        rwa [show i + (1 + (flattenL (i + 1) vs).length) = i + 1 + (flattenL (i + 1) vs).length by omega] at this
      | obj a ms k =>
        simp [flatten] at h0; subst h0
        refine ⟨⟨.objectEnd, k, k + 1, 0⟩, ?_, Doc.slice_text (Nat.le_succ_of_le (Nat.le_of_lt hw.1)) hx.2⟩
        have : (l.drop i)[1 + (flattenM (i + 1) ms).length]? = some ⟨.objectEnd, k, k + 1, 0⟩ := by
          rw [hl]; simp [flatten, Nat.add_comm 1]
        rw [List.getElem?_drop] at this
        rwa [show i + (1 + (flattenM (i + 1) ms).length) = i + 1 + (flattenM (i + 1) ms).length by omega] at this
    obtain ⟨te, g1, g2⟩ := hi h1 ht hc hw
    have hc' : Con t' := by unfold Con at hc ⊢; rwa [← hr.type]
    obtain ⟨te', g1', g2'⟩ := hi h2 ht' hc' hw'
    have hcc : t.type = .object ∨ t.type = .array := hc.symm
    have hcc' : t'.type = .object ∨ t'.type = .array := hc'.symm
    refine .inr ⟨_, _, t.end_ + 1, by simp only [rawValue, if_pos hcc, g1, g2, Option.map_some], ?_, .inr ⟨w, w', hw, hw', hs, .inl hp, rfl, rfl⟩⟩
    simp only [rawValue, if_pos hcc', g1', g2', Option.map_some, hr.con hc]
  · have hcc : ¬ (t.type = .object ∨ t.type = .array) := fun h => hc h.symm
    have hcc' : ¬ (t'.type = .object ∨ t'.type = .array) := by rw [← hr.type]; exact hcc
    by_cases hstr : t.type = .string
    · obtain ⟨hw, hw', hs⟩ := hr.str hstr
      have hd : text pr.src t.index t.end_ = text src' t'.index t'.end_ ∨ ∃ w w', Wf pr.src w ∧ Wf src' w' ∧ Respelled K S pr.src src' w w' ∧ (P w w' ∨ ∃ a b, S a b) ∧
          text pr.src t.index t.end_ = text pr.src w.index w.stop ∧ text src' t'.index t'.end_ = text src' w'.index w'.stop := by
        rcases hs with hs | hs
        · exact .inl hs
        · exact .inr ⟨.str t.index t.end_, .str t'.index t'.end_, hw, hw', .inr hs, .inr ⟨_, _, hs⟩, rfl, rfl⟩
      refine .inr ⟨_, _, i + 1, by simp only [rawValue, if_neg hcc, Doc.slice_text (Nat.le_trans (Nat.le_add_right _ 2) hw.1) hw.2.1, Option.map_some],
        by simp only [rawValue, if_neg hcc', Doc.slice_text (Nat.le_trans (Nat.le_add_right _ 2) hw'.1) hw'.2.1, Option.map_some], hd⟩
    obtain ⟨tv, g1, g2⟩ := hr.leaf hc hstr hkey
    exact .inr ⟨tv, tv, i + 1, by simp only [rawValue, if_neg hcc, g1, Option.map_some], by simp only [rawValue, if_neg hcc', g2, Option.map_some], .inl rfl⟩

theorem onJSON_or {pr : Prog} {src' : Bytes} {toks' : List Token} (h : Sm P K S pr src' toks') {s : St} {f : Frame} {t t' : Token} (hf : f ∈ pr.frames) (hft : f.type = .jsonUnmarshaler)
    (ht : pr.toks[s.ti]? = some t) (ht' : toks'[s.ti]? = some t') (hkey : t.type ≠ .key) : OR pr.toks toks' (onJSONUnmarshaler pr s f t) (onJSONUnmarshaler (other pr src' toks') s f t') := by
  unfold onJSONUnmarshaler
  rcases rawValue_or h ht ht' hkey with ⟨h1, h2⟩ | ⟨raw, raw', ti, h1, h2, h3⟩
  · rw [h1, h2]; trivial
  · rw [h1, h2]
    cases f.ptrImpl <;> cases hrt : f.rtype <;> cases readSeg s.mem s.p f.size <;> try trivial
    rename_i rt old
    have : pr.x.unmarshalJSON rt old raw = pr.x.unmarshalJSON rt old raw' := by
      rcases h3 with rfl | ⟨w, w', hw, hw', hs, hp, rfl, rfl⟩
      · rfl
      · exact h.json f hf hft rt hrt old w w' hw hw' hs hp
    simp only [this]
    cases writeSeg s.mem s.p (fit f.size (pr.x.unmarshalJSON rt old raw').1) with
    | none => trivial
    | some m =>
      simp only
      cases (pr.x.unmarshalJSON rt old raw').2 with
      | none => rfl
      | some e => exact ⟨pos_of ht ht', rfl, rfl⟩

/-! ## Which frames call `UnmarshalJSON` -/

/-- At `ON_JSON_UNMARSHALER` the current frame is that of a type with the method, and the token is not a key. -/
def AtJSON (pr : Prog) (s : St) : Prop := s.pc = .onJSON → (∃ f ∈ pr.frames, pr.frames[s.si]? = some f ∧ f.type = .jsonUnmarshaler) ∧ ∀ t, pr.toks[s.ti]? = some t → t.type ≠ .key

theorem exec_json {pr : Prog} {s s' : St} {f : Frame} {t : Token} {a : Act} (ht : pr.toks[s.ti]? = some t) (hk : t.type ≠ .key) (hf : pr.frames[s.si]? = some f) (ha : a = .toJSON → f.type = .jsonUnmarshaler)
    (h : exec pr s f t a = .run s') : AtJSON pr s' := by
  intro hj
  have hne : ∀ (m : Block) (ti : Nat), s' = { s with mem := m, ti := ti, pc := .valEnd } → False := by rintro m ti rfl; cases hj
  cases a with
  | store n c => simp only [exec] at h; cases hw : writeSeg s.mem s.p (seg n c) <;> rw [hw] at h <;> cases h; exact (hne _ _ rfl).elim
  | clear n => simp only [exec] at h; cases hw : writeSeg s.mem s.p (zeros n) <;> rw [hw] at h <;> cases h; exact (hne _ _ rfl).elim
  | nop => cases h; cases hj
  | text b =>
    simp only [exec] at h
    cases h1 : f.ptrImpl <;> cases h2 : f.rtype <;> cases h3 : readSeg s.mem s.p f.size <;> rw [h1, h2, h3] at h <;> try cases h
    rename_i rt old
    simp only at h
    cases hw : writeSeg s.mem s.p (fit f.size (pr.x.unmarshalText rt old b).1) with
    | none => rw [hw] at h; cases h
    | some m =>
      rw [hw] at h; simp only at h
      cases hr : (pr.x.unmarshalText rt old b).2 with
      | none => rw [hr] at h; cases h; cases hj
      | some e => rw [hr] at h; cases h
  | toPtr => cases h; cases hj
  | toJSON => cases h; exact ⟨⟨f, List.mem_of_getElem? hf, hf, ha rfl⟩, fun t1 h1 => by cases ht.symm.trans h1; exact hk⟩
  | err e => cases h
  | crash => cases h

theorem onBool_json {x : Ext} {ty : EType} {b : Bool} (h : onBool x ty b = .toJSON) : ty = .jsonUnmarshaler := by
  cases ty with
  | scalar k => cases k <;> cases h
  | jsonUnmarshaler => rfl
  | _ => cases h

theorem storeFlt_json {n : Nat} {r : Except Nat Flt} : storeFlt n r ≠ .toJSON := by cases r <;> simp [storeFlt]

theorem storeInt_json {x : Ext} {k : IKind} {tv : Bytes} {e : Err} : storeInt x k tv e ≠ .toJSON := by
  unfold storeInt; split <;> simp

theorem onInteger_json {x : Ext} {ty : EType} {tv : Bytes} (h : onInteger x ty tv = .toJSON) : ty = .jsonUnmarshaler := by
  cases ty with
  | scalar k =>
    cases k with
    | int k =>
      simp only [onInteger] at h
      split at h
      · split at h
        · cases h
        · split at h
          · cases h
          · exact absurd h storeInt_json
      · exact absurd h storeInt_json
    | flt k => exact absurd h storeFlt_json
    | bool => cases h
    | str => cases h
  | any => simp only [onInteger] at h; split at h <;> cases h
  | jsonUnmarshaler => rfl
  | _ => cases h

theorem onNumber_json {x : Ext} {ty : EType} {tv : Bytes} (h : onNumber x ty tv = .toJSON) : ty = .jsonUnmarshaler := by
  cases ty with
  | scalar k =>
    cases k with
    | flt k => exact absurd h storeFlt_json
    | _ => cases h
  | any => simp only [onNumber] at h; split at h <;> cases h
  | jsonUnmarshaler => rfl
  | _ => cases h

theorem onString_json {x : Ext} {ty : EType} {tv : Bytes} (h : onString x ty tv = .toJSON) : ty = .jsonUnmarshaler := by
  cases ty with
  | scalar k =>
    cases k with
    | str => simp only [onString] at h; split at h <;> cases h
    | _ => cases h
  | quoted k =>
    cases k with
    | bool => simp only [onString] at h; (repeat' split at h) <;> cases h
    | str => simp only [onString] at h; (repeat' split at h) <;> cases h
    | int k => simp only [onString] at h; (repeat' split at h) <;> cases h
    | flt k => simp only [onString] at h; (repeat' split at h) <;> first | exact absurd h storeFlt_json | cases h
  | any => simp only [onString] at h; split at h <;> cases h
  | textUnmarshaler => simp only [onString] at h; split at h <;> cases h
  | number => simp only [onString] at h; (repeat' split at h) <;> cases h
  | jsonUnmarshaler => rfl
  | _ => cases h

theorem onNull_json {x : Ext} {ty : EType} (h : onNull x ty = .toJSON) : ty = .jsonUnmarshaler := by
  cases ty <;> first | rfl | cases h

theorem onSliceOf_json {pr : Prog} {s s' : St} {t : Token} {k : SKind} (h : onSliceOf pr s t k = .run s') : s'.pc ≠ .onJSON := by
  unfold onSliceOf at h
  simp only at h
  (repeat' split at h) <;> cases h <;> simp

theorem onArray_json {pr : Prog} {s s' : St} {f : Frame} {t : Token} (ht : pr.toks[s.ti]? = some t) (hk : t.type ≠ .key) (hpc : s.pc = .loop) (hf : pr.frames[s.si]? = some f) (h : onArray pr s f t = .run s') : AtJSON pr s' := by
  intro hj
  unfold onArray at h
  simp only at h
  split at h <;> first
    | exact absurd hj (onSliceOf_json h)
    | (cases h; cases hj; done)
    | (rename_i hft; cases h; exact ⟨⟨f, List.mem_of_getElem? hf, hf, hft⟩, fun t1 h1 => by cases ht.symm.trans h1; exact hk⟩)
    | ((repeat' split at h) <;> cases h <;> first | (cases hj; done) | (exact absurd (hpc.symm.trans hj) (by simp)))

theorem onObject_json {pr : Prog} {s s' : St} {f : Frame} {t : Token} (ht : pr.toks[s.ti]? = some t) (hk : t.type ≠ .key) (hpc : s.pc = .loop) (hf : pr.frames[s.si]? = some f) (h : onObject pr s f t = .run s') : AtJSON pr s' := by
  intro hj
  unfold onObject at h
  simp only at h
  split at h <;> first
    | (cases h; cases hj; done)
    | (rename_i hft; cases h; exact ⟨⟨f, List.mem_of_getElem? hf, hf, hft⟩, fun t1 h1 => by cases ht.symm.trans h1; exact hk⟩)
    | ((repeat' split at h) <;> cases h <;> first | (cases hj; done) | (exact absurd (hpc.symm.trans hj) (by simp)))

theorem onKey_json {pr : Prog} {s s' : St} {f : Frame} {t : Token} (hpc : s.pc = .loop) (h : onKey pr s f t = .run s') : s'.pc ≠ .onJSON := by
  intro hj
  unfold onKey at h
  simp only at h
  (repeat' split at h) <;> cases h <;> first | (cases hj; done) | (exact absurd (hpc.symm.trans hj) (by simp))

theorem step_json {pr : Prog} {s s' : St} (h : step pr s = .run s') : AtJSON pr s' := by
  unfold step at h
  split at h
  · rename_i hpc
    split at h
    · cases h
    · rename_i t ht
      split at h
      · cases h
      · rename_i f hf
        unfold dispatch at h
        split at h
        · rename_i hty; exact exec_json ht (by simp [hty]) hf onBool_json h
        · rename_i hty; exact exec_json ht (by simp [hty]) hf onBool_json h
        · rename_i hty
          split at h
          · cases h
          · exact exec_json ht (by simp [hty]) hf onInteger_json h
        · rename_i hty
          split at h
          · cases h
          · exact exec_json ht (by simp [hty]) hf onNumber_json h
        · rename_i hty
          split at h
          · cases h
          · exact exec_json ht (by simp [hty]) hf onString_json h
        · rename_i hty; exact exec_json ht (by simp [hty]) hf onNull_json h
        · rename_i hty; exact onArray_json ht (by simp [hty]) hpc hf h
        · rename_i hty; exact onObject_json ht (by simp [hty]) hpc hf h
        · exact fun hj => absurd hj (onKey_json hpc h)
        · intro hj
          unfold onObjectEnd at h
          simp only at h
          (repeat' split at h) <;> cases h <;> first | (cases hj; done) | (exact absurd (hpc.symm.trans hj) (by simp))
        · intro hj
          unfold onArrayEnd at h
          simp only at h
          (repeat' split at h) <;> cases h <;> first | (cases hj; done) | (exact absurd (hpc.symm.trans hj) (by simp))
  · intro hj
    unfold onRecurObjEnd at h
    (repeat' split at h) <;> cases h <;> cases hj
  · intro hj
    unfold onValEnd at h
    simp only at h
    (repeat' split at h) <;> cases h <;> cases hj
  · intro hj
    unfold onPtr at h
    (repeat' split at h) <;> cases h <;> cases hj
  · intro hj
    unfold onJSONUnmarshaler at h
    simp only at h
    (repeat' split at h) <;> cases h <;> cases hj

/-! ## Steps and runs -/

theorem step_or {pr : Prog} {src' : Bytes} {toks' : List Token} (h : Sm P K S pr src' toks') {s : St} (hj : AtJSON pr s) : OR pr.toks toks' (step pr s) (step (other pr src' toks') s) := by
  have htok : ∀ t, pr.toks[s.ti]? = some t → ∃ t', toks'[s.ti]? = some t' := by
    intro t ht
    have := (List.getElem?_eq_some_iff.1 ht).1
    exact ⟨_, List.getElem?_eq_getElem (h.zip.1 ▸ this)⟩
  unfold step
  cases hpc : s.pc with
  | loop =>
    simp only
    cases ht : pr.toks[s.ti]? with
    | none =>
      have : toks'[s.ti]? = none := by rw [List.getElem?_eq_none_iff] at ht ⊢; rw [← h.zip.1]; exact ht
      simp only [this]; rfl
    | some t =>
      obtain ⟨t', ht'⟩ := htok t ht
      have hr := h.zip.2 _ _ _ ht ht'
      have hpos := pos_of ht ht'
      simp only [ht']
      cases hf : pr.frames[s.si]? with
      | none => trivial
      | some f =>
        simp only
        unfold dispatch
        rw [← hr.type]
        cases hty : t.type <;> simp only
        · exact exec_or hpos _
        · exact exec_or hpos _
        · rw [hr.whole (not_con hty (by simp) (by simp)) (by simp [hty]) (by simp [hty])]
          cases slice src' t'.index t'.end_ with
          | none => trivial
          | some tv => exact exec_or hpos _
        · rw [hr.whole (not_con hty (by simp) (by simp)) (by simp [hty]) (by simp [hty])]
          cases slice src' t'.index t'.end_ with
          | none => trivial
          | some tv => exact exec_or hpos _
        · obtain ⟨a, b, h1, h2, h3⟩ := (hr.str hty).inside
          rw [h1, h2]
          simp only
          have : onString pr.x f.type a = onString pr.x f.type b := by
            rcases h3 with rfl | h3
            · rfl
            · exact (h.strs a b h3).2 f (List.mem_of_getElem? hf)
          rw [this]
          exact exec_or hpos _
        · exact exec_or hpos _
        · exact onArray_or h ht ht' (.inl hty)
        · unfold onArrayEnd; simp only; or_refl
        · exact onObject_or h ht ht' hty
        · unfold onObjectEnd; simp only; or_refl
        · exact onKey_or h ht ht' hty hf
  | recurObjEnd =>
    simp only
    cases pr.frames[s.si]? with
    | none => trivial
    | some f => unfold onRecurObjEnd; simp only; or_refl
  | valEnd =>
    simp only
    cases pr.frames[s.si]? with
    | none => trivial
    | some f => exact onValEnd_or h s f
  | onPtr => simp only; unfold onPtr; simp only; or_refl
  | onJSON =>
    simp only
    obtain ⟨⟨f, hm, hf, hft⟩, hkey⟩ := hj hpc
    cases ht : pr.toks[s.ti]? with
    | none =>
      have : toks'[s.ti]? = none := by rw [List.getElem?_eq_none_iff] at ht ⊢; rw [← h.zip.1]; exact ht
      simp only [this]; trivial
    | some t =>
      obtain ⟨t', ht'⟩ := htok t ht
      simp only [ht', hf]
      exact onJSON_or h hm hft ht ht' (hkey t ht)

theorem run_or {pr : Prog} {src' : Bytes} {toks' : List Token} (h : Sm P K S pr src' toks') : ∀ (n : Nat) (s : St), AtJSON pr s → OR pr.toks toks' (run pr n s) (run (other pr src' toks') n s)
  | 0, s, _ => rfl
  | n + 1, s, hj => by
    have := step_or h hj
    simp only [run]
    cases hs : step pr s with
    | run s1 =>
      rw [hs] at this
      cases hs' : step (other pr src' toks') s with
      | run s2 =>
        rw [hs'] at this
        cases (this : s1 = s2)
        exact run_or h n s1 (step_json hs)
      | _ => rw [hs'] at this; exact this.elim
    | done s1 =>
      rw [hs] at this
      cases hs' : step (other pr src' toks') s <;> rw [hs'] at this <;> first | exact this | exact this.elim
    | err i e s1 =>
      rw [hs] at this
      cases hs' : step (other pr src' toks') s <;> rw [hs'] at this <;> first | exact this | exact this.elim
    | crash =>
      rw [hs] at this
      cases hs' : step (other pr src' toks') s <;> rw [hs'] at this <;> first | exact this | exact this.elim

theorem pos_token {v v' : JVal} {i i' : Nat} (h : Pos (flatten 0 v) (flatten 0 v') i i') : SameToken v v' i i' := by
  obtain ⟨k, t, t', h1, h2, rfl, rfl⟩ := h
  refine ⟨k, t.index, t'.index, ?_, ?_, rfl, rfl⟩
  · rw [← Reads.flatten_starts v 0, List.getElem?_map, h1]; rfl
  · rw [← Reads.flatten_starts v' 0, List.getElem?_map, h2]; rfl

theorem decode_or {x : Ext} {d : Decoder} {src src' : Bytes} {v v' : JVal} (hw : Wf src v) (hw' : Wf src' v') (hs : Respelled K S src src' v v') (hP : Hered P) (hp : P v v')
    (hj : ∀ rt, CallsJSON d rt → Ignores P K S x src src' rt) (mem : Block) (o : Option Options)
    (hk : ∀ a b, K a b → x.unescStr a = x.unescStr b ∧ ∀ o', o = some o' → keyName o' a = keyName o' b)
    (hm : ∀ a b, K a b → ∀ (i : Nat) f fk, d.frames[i]? = some f → (f.type = .map ∨ f.type = .mapRecur) → d.frames[i + 1]? = some fk → mapKeyOf x fk a = mapKeyOf x fk b)
    (hst : ∀ a b, S a b → x.unescStr a = x.unescStr b ∧ ∀ f ∈ d.frames, onString x f.type a = onString x f.type b) :
    SameOutcome v v' (decode x d src (.ok v) (some mem) o) (decode x d src' (.ok v') (some mem) o) := by
  have hsm : Sm P K S { x := x, src := src, toks := flatten 0 v, frames := d.frames, options := o, epoch := d.calls } src' (flatten 0 v') := by
    refine ⟨toks_zip v v' 0 hw hw' hs, fun i t ht hc => ?_, fun f hf hft rt hrt => hj rt ⟨f, hf, hft, hrt⟩, hk, hm, hst⟩
    have := sub_at hP v v' 0 [] [] hw hw' hs hp i t ht hc
    simpa using this
  unfold decode
  simp only
  cases hfr : d.frames with
  | nil => trivial
  | cons f0 fs =>
    rw [hfr] at hsm
    have hfuel : fuelFor { x := x, src := src', toks := flatten 0 v', frames := f0 :: fs, options := o, epoch := d.calls } =
        fuelFor { x := x, src := src, toks := flatten 0 v, frames := f0 :: fs, options := o, epoch := d.calls } := by simp only [fuelFor, same_len v v' 0 0 hs]
    have := run_or hsm (fuelFor { x := x, src := src, toks := flatten 0 v, frames := f0 :: fs, options := o, epoch := d.calls }) (initSt d.dyn mem) (fun h => by cases h)
    simp only [hfuel]
    revert this
    generalize run { x := x, src := src, toks := flatten 0 v, frames := f0 :: fs, options := o, epoch := d.calls } _ (initSt d.dyn mem) = r
    change OR _ _ r (run { x := x, src := src', toks := flatten 0 v', frames := f0 :: fs, options := o, epoch := d.calls } _ (initSt d.dyn mem)) → _
    generalize run { x := x, src := src', toks := flatten 0 v', frames := f0 :: fs, options := o, epoch := d.calls } _ (initSt d.dyn mem) = r'
    intro this
    cases r <;> cases r' <;> try exact this.elim
    · trivial
    · cases (this : _ = _)
      simp only
      cases (readSeg _ _ f0.size).bind _ with
      | none => trivial
      | some m => exact ⟨rfl, rfl, rfl, .inl ⟨rfl, rfl⟩⟩
    · obtain ⟨h1, rfl, rfl⟩ := this
      exact ⟨rfl, rfl, rfl, .inr (pos_token h1)⟩
    · trivial

/-! ## Only white space -/

/-- No two different spellings are related. -/
abbrev Never : Bytes → Bytes → Prop := fun _ _ => False

mutual
theorem same_iff {src src' : Bytes} : ∀ v v' : JVal, SameDoc src src' v v' ↔ Respelled Never Never src src' v v'
  | .null _ _, v' => by cases v' <;> exact Iff.rfl
  | .bool _ _ _, v' => by cases v' <;> exact Iff.rfl
  | .num _ _ _, v' => by cases v' <;> exact Iff.rfl
  | .str _ _, v' => by
    cases v' <;> first | exact Iff.rfl | skip
    exact ⟨.inl, fun h => h.elim id False.elim⟩
  | .arr _ vs _, v' => by
    cases v' <;> first | exact Iff.rfl | skip
    exact same_iffL vs _
  | .obj _ ms _, v' => by
    cases v' <;> first | exact Iff.rfl | skip
    exact same_iffM ms _
theorem same_iffL {src src' : Bytes} : ∀ vs vs' : List JVal, SameDocL src src' vs vs' ↔ RespelledL Never Never src src' vs vs'
  | [], [] => Iff.rfl
  | [], _ :: _ => Iff.rfl
  | _ :: _, [] => Iff.rfl
  | v :: vs, v' :: vs' => and_congr (same_iff v v') (same_iffL vs vs')
theorem same_iffM {src src' : Bytes} : ∀ ms ms' : List ((Nat × Nat) × JVal), SameDocM src src' ms ms' ↔ RespelledM Never Never src src' ms ms'
  | [], [] => Iff.rfl
  | [], _ :: _ => Iff.rfl
  | _ :: _, [] => Iff.rfl
  | m :: ms, m' :: ms' => and_congr ⟨.inl, fun h => h.elim id False.elim⟩ (and_congr (same_iff m.2 m'.2) (same_iffM ms ms'))
end

theorem decode_same {x : Ext} {d : Decoder} {src src' : Bytes} {v v' : JVal} (hw : Wf src v) (hw' : Wf src' v') (hs : SameDoc src src' v v')
    (hj : ∀ rt, CallsJSON d rt → IgnoresSpace x src src' rt) (mem : Block) (o : Option Options) :
    SameOutcome v v' (decode x d src (.ok v) (some mem) o) (decode x d src' (.ok v') (some mem) o) :=
  decode_or (P := fun _ _ => True) hw hw' ((same_iff v v').1 hs) ⟨fun _ _ _ _ _ _ => trivial, fun _ _ _ _ _ _ => trivial⟩ trivial (fun rt h old w w' h1 h2 h3 _ => hj rt h old w w' h1 h2 ((same_iff w w').2 h3)) mem o
    (fun _ _ h => h.elim) (fun _ _ h => h.elim) (fun _ _ h => h.elim)

/-! ## Other spellings -/

theorem same_valid {a b : Bytes} (h : SameString a b) : Unescape.valid a = Unescape.valid b := by
  obtain ⟨out, h1, h2⟩ := h
  rw [Unescape.valid_eq h1, Unescape.valid_eq h2]

theorem same_unesc {x : Ext} (hx : x.strInput = false) {a b : Bytes} (h : SameString a b) : x.unescStr a = x.unescStr b := by
  simp only [Ext.unescStr, same_valid h, hx, Bool.false_and]

theorem decode_spelling {x : Ext} (hx : x.strInput = false) {d : Decoder} {src src' : Bytes} {v v' : JVal} (hw : Wf src v) (hw' : Wf src' v') (hs : SameSpelling d src src' v v')
    (hj : ∀ rt, CallsJSON d rt → IgnoresSpelling x SameString SameString src src' rt) (mem : Block) (o : Option Options) (ho : ∀ o', o = some o' → o'.disableFieldNameUnescaping = false) :
    SameOutcome v v' (decode x d src (.ok v) (some mem) o) (decode x d src' (.ok v') (some mem) o) := by
  refine decode_or (P := fun _ _ => True) hw hw' hs ⟨fun _ _ _ _ _ _ => trivial, fun _ _ _ _ _ _ => trivial⟩ trivial (fun rt h old w w' h1 h2 h3 _ => hj rt h old w w' h1 h2 (weaken w w' h3)) mem o ?_ ?_ ?_
  · rintro a b ⟨-, h⟩
    refine ⟨same_unesc hx h, fun o' h' => ?_⟩
    simp [keyName, ho o' h', same_valid h]
  · rintro a b ⟨hn, h⟩ i f fk hf ht hfk
    unfold mapKeyOf
    cases hk : fk.type with
    | scalar k =>
      cases k with
      | int k => exact absurd ⟨i, f, fk, k, hf, ht, hfk, hk⟩ hn
      | str => simp only [same_unesc hx h]
      | _ => rfl
    | textUnmarshaler => simp only [same_valid h]
    | _ => rfl
  · rintro a b ⟨hn, h⟩
    refine ⟨same_unesc hx h, fun f hf => ?_⟩
    cases hk : f.type with
    | scalar k =>
      cases k with
      | str => simp only [onString, same_unesc hx h]
      | _ => rfl
    | any => simp only [onString, same_unesc hx h]
    | textUnmarshaler => simp only [onString, same_valid h]
    | number => exact absurd ⟨f, hf, .inl hk⟩ hn
    | quoted k => exact absurd ⟨f, hf, .inr ⟨k, hk⟩⟩ hn
    | _ => rfl
where
  weaken {K S : Bytes → Bytes → Prop} {src src' : Bytes} {p q : Prop} : ∀ v v' : JVal, Respelled (fun a b => p ∧ K a b) (fun a b => q ∧ S a b) src src' v v' → Respelled K S src src' v v'
    | .null _ _, v', h => by cases v' <;> exact h
    | .bool _ _ _, v', h => by cases v' <;> exact h
    | .num _ _ _, v', h => by cases v' <;> exact h
    | .str _ _, v', h => by
      cases v' <;> first | exact h | skip
      exact Or.imp id And.right h
    | .arr _ vs _, v', h => by
      cases v' <;> first | exact h | skip
      exact weakenL vs _ h
    | .obj _ ms _, v', h => by
      cases v' <;> first | exact h | skip
      exact weakenM ms _ h
  weakenL {K S : Bytes → Bytes → Prop} {src src' : Bytes} {p q : Prop} : ∀ vs vs' : List JVal, RespelledL (fun a b => p ∧ K a b) (fun a b => q ∧ S a b) src src' vs vs' → RespelledL K S src src' vs vs'
    | [], [], h => h
    | [], _ :: _, h => h
    | _ :: _, [], h => h
    | v :: vs, v' :: vs', h => ⟨weaken v v' h.1, weakenL vs vs' h.2⟩
  weakenM {K S : Bytes → Bytes → Prop} {src src' : Bytes} {p q : Prop} : ∀ ms ms' : List ((Nat × Nat) × JVal), RespelledM (fun a b => p ∧ K a b) (fun a b => q ∧ S a b) src src' ms ms' → RespelledM K S src src' ms ms'
    | [], [], h => h
    | [], _ :: _, h => h
    | _ :: _, [], h => h
    | m :: ms, m' :: ms', h => ⟨Or.imp id And.right h.1, weaken m.2 m'.2 h.2.1, weakenM ms ms' h.2.2⟩

end Verif.Proof.Place

import Verif.Proof.CausalStep
/-!
# Arrays and objects that are not over at the token `p`
-/
namespace Verif.Proof.Causal
open Verif.Model Verif.Spec Verif.Big Verif.Proof Verif.Proof.Judge Verif.Proof.Place Verif.Proof.Term

variable {i p z : Nat} {pr : Prog} {src' : Bytes} {toks' : List Token}

theorem Ag.ne (h : Ag pr src' toks' i p z) {n : Nat} {t t' : Token} (ht : pr.toks[n]? = some t) (ho : Open p t t') : t.index ≠ i := fun he => by
  have := (h.idx n t ht he).2 ho.1
  have := ho.2.1
  omega

/-- `decodeAny` goes to the end of the array or object. -/
theorem any_late (h : Ag pr src' toks' i p z) {n : Nat} {t t' : Token} (ht : pr.toks[n]? = some t) (ho : Open p t t') {v : AnyVal} {tail : List Token}
    (ha : decodeAny pr.x pr.src (pr.toks.length + 1) (pr.toks.drop n) = .ok v tail) : p ≤ pr.toks.length - tail.length := by
  obtain ⟨w0, hv⟩ := h.tree
  have h0 := ht
  rw [hv] at h0
  obtain ⟨w, r, h1, h2⟩ := sub_one w0 0 [] n t h0 ho.1
  rw [List.append_nil, ← hv, Nat.zero_add] at h1
  rw [Nat.zero_add] at h2
  have l1 := congrArg List.length h1
  simp only [List.length_drop, List.length_append] at l1
  rw [h1, Any.decodeAny_flatten _ _ _ _ _ _ (by omega)] at ha
  have hp := ho.2.1
  have := Any.flatten_pos n w
  cases hw : anyOf pr.x pr.src w with
  | none => rw [hw] at ha; cases ha
  | some o =>
    rw [hw] at ha
    cases o with
    | error e => cases ha
    | ok v' => cases ha; omega

theorem Ag.ah (h : Ag pr src' toks' i p z) {n : Nat} {t t' : Token} (ht : pr.toks[n]? = some t) (ho : Open p t t') :
    Ah i z ((pr.toks.take t.end_).drop (n + 1)) ((toks'.take t'.end_).drop (n + 1)) := by
  intro m u hu hi j hj
  rw [List.getElem?_drop, List.getElem?_take] at hu
  split at hu
  · rename_i hm
    have := (h.idx _ u hu hi).1
    obtain ⟨a, a', g1, g2, g3⟩ := h.lk (n := n + 1 + j) (by omega)
    have h1 := ho.2.1
    have h2 := ho.2.2.1
    refine ⟨a, a', ?_, ?_, g3⟩
    · rw [List.getElem?_drop, List.getElem?_take, if_pos (by omega)]; exact g1
    · rw [List.getElem?_drop, List.getElem?_take, if_pos (by omega)]; exact g2
  · cases hu

theorem sliceOf_K (h : Ag pr src' toks' i p z) {ti si : Nat} {pc pc' : PC} {dyn dyn' : Nat → Dyn} {mem mem' : Block} {t t' : Token} {k : SKind} (ht : pr.toks[ti]? = some t) (ho : Open p t t') :
    K i p (onSliceOf pr ⟨ti, si, pc, dyn, mem⟩ t k) (onSliceOf (other pr src' toks') ⟨ti, si, pc', dyn', mem'⟩ t' k) := by
  have h1 : ¬ t.elements < 1 := by have := ho.2.2.2.1; omega
  have h2 : ¬ t'.elements < 1 := by have := ho.2.2.2.2; omega
  have hA := h.ah ht ho
  have hp := ho.2.1
  unfold onSliceOf
  simp only [other, h1, h2, if_false]
  split
  · exact .left
  · rename_i l c a _
    by_cases hb : t.end_ < ti + 1 ∨ pr.toks.length < t.end_
    · simp only [hb, if_true]; exact .left
    · simp only [hb, if_false]
      have hlen : p ≤ ti + (((pr.toks.take t.end_).drop (ti + 1)).length + 2) := by
        simp only [List.length_drop, List.length_take]; omega
      have hq : ∀ {e : Err} {b a : Block}, sliceElems pr.x pr.src k ((pr.toks.take t.end_).drop (ti + 1)) 0 a = .err i e b → ∀ a',
          sliceElems pr.x src' k ((toks'.take t'.end_).drop (ti + 1)) 0 a' = .crash ∨ ∃ b', sliceElems pr.x src' k ((toks'.take t'.end_).drop (ti + 1)) 0 a' = .err i e b' :=
        fun he a' => elems_K h.take _ _ _ _ _ hA he
      -- an error in the second run
      have hr : ∀ {e : Err} {b a : Block} {s1 : St}, sliceElems pr.x pr.src k ((pr.toks.take t.end_).drop (ti + 1)) 0 a = .err i e b → K i p (.err i e s1)
          (match sliceHdr (readCell mem' (St.p ⟨ti, si, pc', dyn', mem'⟩)) with
            | none => .crash
            | some (l, c, a) =>
              if t'.end_ < ti + 1 ∨ toks'.length < t'.end_ then .crash
              else if c < t'.elements then
                match sliceElems pr.x src' k ((toks'.take t'.end_).drop (ti + 1)) 0 (zeros (t'.elements * k.bytes pr.x)) with
                | .crash => .crash
                | .err i e _ => .err i e ⟨ti, si, pc', dyn', mem'⟩
                | .ok arr =>
                  match writeSeg mem' (St.p ⟨ti, si, pc', dyn', mem'⟩) (seg (3 * pr.x.W) (.slice t'.elements t'.elements arr)) with
                  | none => .crash
                  | some m => .run ⟨ti + (((toks'.take t'.end_).drop (ti + 1)).length + 2), si, .valEnd, dyn', m⟩
              else
                match sliceElems pr.x src' k ((toks'.take t'.end_).drop (ti + 1)) 0 (a.take (t'.elements * k.bytes pr.x)) with
                | .crash => .crash
                | .err i e arr =>
                  match writeSeg mem' (St.p ⟨ti, si, pc', dyn', mem'⟩) (seg (3 * pr.x.W) (.slice l c (arr ++ a.drop (t'.elements * k.bytes pr.x)))) with
                  | none => .crash
                  | some m => .err i e ⟨ti, si, pc', dyn', m⟩
                | .ok arr =>
                  match writeSeg mem' (St.p ⟨ti, si, pc', dyn', mem'⟩) (seg (3 * pr.x.W) (.slice t'.elements c (arr ++ a.drop (t'.elements * k.bytes pr.x)))) with
                  | none => .crash
                  | some m => .run ⟨ti + (((toks'.take t'.end_).drop (ti + 1)).length + 2), si, .valEnd, dyn', m⟩) := by
        intro e b a s1 he
        split
        · exact .right
        · split
          · exact .right
          · split
            · rcases hq he (zeros (t'.elements * k.bytes pr.x)) with hx | ⟨b', hx⟩
              · simp only [hx]; exact .right
              · simp only [hx]; exact .same
            · rename_i l' c' a' _ _ _
              rcases hq he (a'.take (t'.elements * k.bytes pr.x)) with hx | ⟨b', hx⟩
              · simp only [hx]; exact .right
              · simp only [hx]
                split
                · exact .right
                · exact .same
      split
      · split
        · exact .left
        · rename_i j e b he
          by_cases hj : j = i
          · subst hj; exact hr he
          · exact .other hj
        · split
          · exact .left
          · exact .late hlen
      · split
        · exact .left
        · rename_i j e b he
          split
          · exact .left
          · by_cases hj : j = i
            · subst hj; exact hr he
            · exact .other hj
        · split
          · exact .left
          · exact .late hlen

theorem array_K (h : Ag pr src' toks' i p z) {ti si : Nat} {pc : PC} {dyn dyn' : Nat → Dyn} {mem mem' : Block} {f : Frame} {t t' : Token} (ht : pr.toks[ti]? = some t) (ho : Open p t t') (hd : D dyn dyn') :
    K i p (onArray pr ⟨ti, si, pc, dyn, mem⟩ f t) (onArray (other pr src' toks') ⟨ti, si, pc, dyn', mem'⟩ f t') := by
  have hne := h.ne ht ho
  have hp := ho.2.1
  have h1 := ho.2.2.2.1
  have h2 := ho.2.2.2.2
  have h1' : ¬ t.elements < 1 := by omega
  have h2' : ¬ t'.elements < 1 := by omega
  unfold onArray
  simp only [other]
  cases f.type with
  | any =>
    simp only []
    cases ha : decodeAny pr.x pr.src (pr.toks.length + 1) (pr.toks.drop ti) with
    | ok v tail =>
      simp only []
      split
      · exact .left
      · exact .late (any_late h ht ho ha)
    | err e => exact .other hne
    | crash => exact .left
  | arrayLen0 => exact .late (show p ≤ t.end_ + 1 by omega)
  | array =>
    simp only [h1', h2', if_false]
    exact .go ⟨rfl, rfl, rfl, hd.upd _ fun _ _ _ h2 => ⟨rfl, h2⟩⟩
  | slice =>
    simp only [h1, h2, if_false]
    cases pr.frames[si + 1]? with
    | none => exact .left
    | some fe =>
      simp only []
      split
      · split
        · exact .left
        split
        · split
          · exact .right
          exact .go ⟨rfl, rfl, rfl, hd.dest _⟩
        · exact .right
      · exact .left
  | sliceRecur =>
    simp only [h1, h2, if_false]
    cases pr.frames[f.recurFrame]? with
    | none => exact .left
    | some fr =>
      simp only []
      split
      · split
        · exact .left
        split
        · split
          · exact .right
          exact .go ⟨rfl, rfl, rfl, hd.push _ _ _ _⟩
        · exact .right
      · exact .left
  | sliceEmptyStruct =>
    simp only []
    split
    · exact .left
    · exact .late (show p ≤ t.end_ + 1 by omega)
  | sliceOf k => exact sliceOf_K h ht ho
  | ptr => exact .go ⟨rfl, rfl, rfl, hd⟩
  | jsonUnmarshaler => exact .go ⟨rfl, rfl, rfl, hd⟩
  | _ => exact .other hne

theorem object_K (h : Ag pr src' toks' i p z) {ti si : Nat} {pc : PC} {dyn dyn' : Nat → Dyn} {mem mem' : Block} {f : Frame} {t t' : Token} (ht : pr.toks[ti]? = some t) (ho : Open p t t') (h0 : D dyn dyn') :
    K i p (onObject pr ⟨ti, si, pc, dyn, mem⟩ f t) (onObject (other pr src' toks') ⟨ti, si, pc, dyn', mem'⟩ f t') := by
  have hne := h.ne ht ho
  have hp := ho.2.1
  have h1 := ho.2.2.2.1
  have h2 := ho.2.2.2.2
  unfold onObject
  simp only [other]
  cases f.type with
  | emptyStruct => exact .late hp
  | any =>
    simp only []
    cases ha : decodeAny pr.x pr.src (pr.toks.length + 1) (pr.toks.drop ti) with
    | ok v tail =>
      simp only []
      split
      · exact .left
      · exact .late (any_late h ht ho ha)
    | err e => exact .other hne
    | crash => exact .left
  | ptrRecur =>
    simp only [h1, h2, if_false]
    cases pr.frames[f.recurFrame]? with
    | none => exact .left
    | some fr =>
      cases hp : St.p ⟨ti, si, pc, dyn, mem⟩ with
      | «at» ad =>
        cases hp' : St.p ⟨ti, si, pc, dyn', mem'⟩ with
        | «at» ad' =>
          simp only []
          refine opt_K fun m m' => ?_
          have hd := (h0.push (q := Dyn.dest) (q' := Dyn.dest) (o := Dyn.offset) (o' := Dyn.offset) f.recurFrame si pr.epoch pr.epoch).dest (q := fun _ => .at (ad.into .deref)) (q' := fun _ => .at (ad'.into .deref)) (o := Dyn.offset) (o' := Dyn.offset) f.recurFrame
          exact .go ⟨rfl, rfl, rfl, hd.fields _⟩
        | _ => exact .right
      | _ => exact .left
  | mapRecur =>
    simp only [h1, h2, if_false]
    cases pr.frames[f.recurFrame]? with
    | none => exact .left
    | some fr =>
      simp only []
      have hd := h0.push (q := Dyn.dest) (q' := Dyn.dest) (o := Dyn.offset) (o' := Dyn.offset) f.recurFrame si pr.epoch pr.epoch
      refine opt_K fun m m' => ?_
      exact .go ⟨rfl, rfl, rfl, hd⟩
  | map =>
    simp only [h1, h2, if_false]
    refine opt_K fun m m' => ?_
    exact .go ⟨rfl, rfl, rfl, h0⟩
  | mapStringString =>
    simp only [h1, h2, if_false]
    split
    · exact .left
    split
    · exact .left
    · rename_i j e he
      by_cases hj : j = i
      · subst hj
        split
        · exact .right
        rcases mapSS_K (src' := src') _ _ [] [] (h.ah ht ho) he with hx | hx
        · simp only [hx]; exact .right
        · simp only [hx]; exact .same
      · exact .other hj
    · split
      · exact .left
      · exact .late (show p ≤ t.end_ + 1 by omega)
  | struct =>
    simp only [h1, h2, if_false]
    exact .go ⟨rfl, rfl, rfl, h0.fields _⟩
  | structRecur =>
    simp only [h1, h2, if_false]
    exact .go ⟨rfl, rfl, rfl, h0.fields _⟩
  | ptr => exact .go ⟨rfl, rfl, rfl, h0⟩
  | jsonUnmarshaler => exact .go ⟨rfl, rfl, rfl, h0⟩
  | _ => exact .other hne

end Verif.Proof.Causal

import Verif.Spec.TypeGraph
import Verif.Proof.Append
/-!
# `NewDecoder` and the graph of types
-/
namespace Verif.Proof.TypeGraph
open Verif.Model Verif.Spec Verif.Proof.Append

/-! ## Tags -/

theorem indexComma_none : ∀ {s : Bytes}, indexComma s = none ↔ 44 ∉ s
  | [] => by simp [indexComma]
  | c :: cs => by
    have ih := indexComma_none (s := cs)
    by_cases h : c = 44
    · simp [indexComma, h]
    · simp [indexComma, h, ih, Ne.symm h]

theorem indexComma_some : ∀ {s : Bytes} {i : Nat}, indexComma s = some i → 44 ∉ s.take i ∧ s = s.take i ++ 44 :: s.drop (i + 1)
  | [], i, h => by simp [indexComma] at h
  | c :: cs, i, h => by
    by_cases hc : c = 44
    · simp only [indexComma, hc, if_true, Option.some.injEq] at h
      subst h; simp [hc]
    · simp only [indexComma, hc, if_false, Option.map_eq_some_iff] at h
      obtain ⟨j, hj, rfl⟩ := h
      obtain ⟨h1, h2⟩ := indexComma_some hj
      refine ⟨by simp [h1, Ne.symm hc], ?_⟩
      simp only [List.take_succ_cons, List.drop_succ_cons, List.cons_append]
      exact congrArg _ h2

theorem indexComma_app : ∀ {a r : Bytes}, 44 ∉ a → indexComma (a ++ 44 :: r) = some a.length
  | [], r, _ => by simp [indexComma]
  | c :: cs, r, h => by
    simp only [List.mem_cons, not_or] at h
    simp [indexComma, Ne.symm h.1, indexComma_app h.2]

theorem parse_split {n tag name : Bytes} {rest : Option Bytes} (h : TagSplit tag name rest) (hne : tag ≠ []) :
    parseTag n tag = if name = [] then some (n, decide (rest = some b!"string")) else if name = b!"-" then none else some (name, decide (rest = some b!"string")) := by
  obtain ⟨h1, h2⟩ := h
  cases rest with
  | none => have h2 : tag = name := h2; subst h2; simp [parseTag, indexComma_none.2 h1, hne]
  | some o =>
    have h2 : tag = name ++ 44 :: o := h2
    subst h2
    simp [parseTag, indexComma_app h1]

theorem tag_iff {n tag : Bytes} {r : Option (Bytes × Bool)} : TagMeans n tag r ↔ parseTag n tag = r := by
  constructor
  · intro h
    by_cases hne : tag = []
    · subst hne
      have he : ∀ {name rest}, TagSplit [] name rest → name = [] ∧ rest = none := by
        intro name rest h
        obtain ⟨-, h2⟩ := h
        cases rest with
        | none => exact ⟨h2.symm, rfl⟩
        | some o => simp at h2
      cases h with
      | ignored h => cases (he h).1
      | unnamed h => simp [parseTag, (he h).2]
      | named h h1 => exact (h1 (he h).1).elim
    · cases h with
      | ignored h => rw [parse_split h hne]; rfl
      | unnamed h => rw [parse_split h hne, if_pos rfl]
      | named h h1 h2 => rw [parse_split h hne, if_neg h1, if_neg h2]
  · intro h
    have hs : ∃ name rest, TagSplit tag name rest := by
      cases hc : indexComma tag with
      | none => exact ⟨tag, none, indexComma_none.1 hc, rfl⟩
      | some i =>
        obtain ⟨h1, h2⟩ := indexComma_some hc
        exact ⟨_, some _, h1, h2⟩
    obtain ⟨name, rest, hs⟩ := hs
    by_cases hne : tag = []
    · subst hne
      simp only [parseTag, if_true] at h
      subst h
      exact .unnamed (rest := none) ⟨by simp, rfl⟩
    · rw [parse_split hs hne] at h
      split at h
      · rename_i h1; subst h1; subst h; exact .unnamed hs
      · rename_i h1
        split at h
        · rename_i h2; subst h2; subst h; exact .ignored hs
        · rename_i h2; subst h; exact .named hs h1 h2

theorem tag_unique {n tag : Bytes} {r r' : Option (Bytes × Bool)} (h : TagMeans n tag r) (h' : TagMeans n tag r') : r = r' := (tag_iff.1 h).symm.trans (tag_iff.1 h')

theorem tag_exists (n tag : Bytes) : ∃ r, TagMeans n tag r := ⟨_, tag_iff.2 rfl⟩

/-! ## One call of `appendTypeToStack` -/

/-- Change frame `i` after a successful call. -/
def post (i : Nat) (g : Frame → Frame) : AppendRes → AppendRes
  | .ok s => .ok (s.modify i g)
  | r => r

theorem link_post {p i : Nat} {r : AppendRes} : linkParent p i r = post i (fun f => { f with parent := some p }) r := by cases r <;> rfl

/-- What a call does with a type, apart from the recursive calls. -/
inductive Node (env : TypeEnv) (W : Nat) (opts : Option InitOptions) (t : TypeId) : Prop
  | leaf (f : Frame) (hc : ∀ c, ¬ Child env t c) (hk : ¬ BadKind env t) (hi : ¬ BadInterface env t) (hb : ¬ BadTag env t) (hr : f.rtype = none ∨ f.rtype = some t)
      (hs : (retagString f.type).isSome = plainScalar (env t)) (h : ∀ n s, appendType env W opts (n + 1) s (some t) = .ok (s ++ [f]))
  | bad (hb : BadKind env t) (h : ∀ n s, appendType env W opts (n + 1) s (some t) = .err (.unsupportedType t))
  | iface (hb : BadInterface env t) (h : ∀ n s, appendType env W opts (n + 1) s (some t) = .panic)
  | elem (f : Frame) (g : Nat → Frame → Frame) (hc : ∀ c, Child env t c ↔ c = (env t).elem) (hk : ¬ BadKind env t) (hi : ¬ BadInterface env t) (hb : ¬ BadTag env t) (hf : f.rtype = none)
      (hg : ∀ i f, (g i f).rtype = f.rtype) (hs : retagString f.type = none) (hp : plainScalar (env t) = false) (hns : (env t).kind ≠ .struct) (hnt : ¬ Tied env t (env t).elem)
      (h : ∀ n s, appendType env W opts (n + 1) s (some t) = post (s.length + 1) (g s.length) (appendType env W opts n (s ++ [f]) (some (env t).elem)))
  | tied (f : Frame) (f' : Nat → Frame) (g : Nat → Frame → Frame) (hc : ∀ c, Child env t c ↔ c = (env t).elem) (ht : Tied env t (env t).elem) (hns : (env t).kind ≠ .struct) (hk : ¬ BadKind env t) (hi : ¬ BadInterface env t) (hb : ¬ BadTag env t)
      (hf : f.rtype = none) (hf' : ∀ j, (f' j).rtype = none) (hg : ∀ i f, (g i f).rtype = f.rtype) (hs : retagString f.type = none) (hs' : ∀ j, retagString (f' j).type = none) (hp : plainScalar (env t) = false)
      (h : ∀ n s, appendType env W opts (n + 1) s (some t) = match findRType (env t).elem s with
        | some j => .ok (markRecur s j ++ [f' j])
        | none => post (s.length + 1) (g s.length) (appendType env W opts n (s ++ [f]) (some (env t).elem)))
  | map (f : Frame) (f' : Nat → Frame) (g : Nat → Frame → Frame) (b : Bool) (hc : ∀ c, Child env t c ↔ c = (env t).key ∨ c = (env t).elem) (ht : (env t).kind = .map ∧ (b = true ↔ (env (env t).elem).kind = .struct ∧ 0 < (env (env t).elem).size)) (hk : ¬ BadKind env t)
      (hi : ¬ BadInterface env t) (hb : ¬ BadTag env t) (hf : f.rtype = some t) (hf' : ∀ j, (f' j).rtype = none) (hg : ∀ i f, (g i f).rtype = f.rtype) (hs : retagString f.type = none)
      (hs' : ∀ j, retagString (f' j).type = none) (hp : plainScalar (env t) = false)
      (h : ∀ n s, appendType env W opts (n + 1) s (some t) = match (if b then findRType (env t).elem s else none) with
        | some j => post (s.length + 1) (g s.length) (appendType env W opts n (markRecur s j ++ [f' j]) (some (env t).key))
        | none => match post (s.length + 1) (g s.length) (appendType env W opts n (s ++ [f]) (some (env t).key)) with
          | .ok s' => post s'.length (g s.length) (appendType env W opts n s' (some (env t).elem))
          | r => r)
  | struct (f : Frame) (hu : TypeInfo.unmarshaler (env t) = false) (hk : (env t).kind = .struct) (hf : f.rtype = some t) (hs : retagString f.type = none) (hp : plainScalar (env t) = false)
      (h : ∀ n s, appendType env W opts (n + 1) s (some t) = appendFields (fun s t => appendType env W opts n s (some t)) opts s.length (env t).fields (s ++ [f]))

theorem node (env : TypeEnv) (W : Nat) (opts : Option InitOptions) (t : TypeId) : Node env W opts t := by
  by_cases hJ : (env t).implJSON = true
  · have hu : TypeInfo.unmarshaler (env t) = true := by simp [TypeInfo.unmarshaler, hJ]
    refine .leaf { type := .jsonUnmarshaler, rtype := some t, ptrImpl := decide ((env t).kind ≠ .pointer ∧ (env t).kind ≠ .interface), size := (env t).size, typ := some t } ?_ ?_ ?_ ?_ (.inr rfl) ?_ ?_
    · intro c hc; cases hc <;> simp_all
    · intro h; simp_all [BadKind]
    · intro h; simp_all [BadInterface]
    · intro h; simp_all [BadTag]
    · simp [plainScalar, hu, retagString]
    · intro n s; simp only [appendType, hJ, if_true]
  by_cases hT : (env t).implText = true
  · have hu : TypeInfo.unmarshaler (env t) = true := by simp [TypeInfo.unmarshaler, hT]
    refine .leaf { type := .textUnmarshaler, rtype := some t, ptrImpl := decide ((env t).kind ≠ .pointer ∧ (env t).kind ≠ .interface), size := (env t).size, typ := some t } ?_ ?_ ?_ ?_ (.inr rfl) ?_ ?_
    · intro c hc; cases hc <;> simp_all
    · intro h; simp_all [BadKind]
    · intro h; simp_all [BadInterface]
    · intro h; simp_all [BadTag]
    · simp [plainScalar, hu, retagString]
    · intro n s; simp only [appendType, hJ, hT, if_true, if_false, Bool.false_eq_true]
  have hu : TypeInfo.unmarshaler (env t) = false := by simp [TypeInfo.unmarshaler, hJ, hT]
  cases hk : (env t).kind with
  | bool => refine .leaf { type := .scalar .bool, size := (env t).size, typ := some t } (fun c hc => by cases hc <;> simp_all) (fun h => by simp_all [BadKind]) (fun h => by simp_all [BadInterface]) (fun h => by simp_all [BadTag]) (.inl rfl) (by simp [plainScalar, hu, hk, retagString]) (fun n s => by rw [appendType]; simp [hJ, hT, hk])
  | int k => refine .leaf { type := .scalar (.int k), size := (env t).size, typ := some t } (fun c hc => by cases hc <;> simp_all) (fun h => by simp_all [BadKind]) (fun h => by simp_all [BadInterface]) (fun h => by simp_all [BadTag]) (.inl rfl) (by simp [plainScalar, hu, hk, retagString]) (fun n s => by rw [appendType]; simp [hJ, hT, hk])
  | float k => refine .leaf { type := .scalar (.flt k), size := (env t).size, typ := some t } (fun c hc => by cases hc <;> simp_all) (fun h => by simp_all [BadKind]) (fun h => by simp_all [BadInterface]) (fun h => by simp_all [BadTag]) (.inl rfl) (by simp [plainScalar, hu, hk, retagString]) (fun n s => by rw [appendType]; simp [hJ, hT, hk])
  | other => exact .bad ⟨hu, hk⟩ (fun n s => by rw [appendType]; simp [hJ, hT, hk])
  | string =>
    cases hn : (env t).isNumber with
    | true => refine .leaf { type := .number, size := (env t).size, typ := some t } (fun c hc => by cases hc <;> simp_all) (fun h => by simp_all [BadKind]) (fun h => by simp_all [BadInterface]) (fun h => by simp_all [BadTag]) (.inl rfl) (by simp [plainScalar, hu, hk, retagString, hn]) (fun n s => by rw [appendType]; simp [hJ, hT, hk, hn])
    | false => refine .leaf { type := .scalar .str, size := (env t).size, typ := some t } (fun c hc => by cases hc <;> simp_all) (fun h => by simp_all [BadKind]) (fun h => by simp_all [BadInterface]) (fun h => by simp_all [BadTag]) (.inl rfl) (by simp [plainScalar, hu, hk, retagString, hn]) (fun n s => by rw [appendType]; simp [hJ, hT, hk, hn])
  | interface =>
    by_cases hn : (env t).numMethod = 0
    · refine .leaf { type := .any, size := 2 * W, typ := some t } (fun c hc => by cases hc <;> simp_all) (fun h => by simp_all [BadKind]) (fun h => by simp_all [BadInterface]) (fun h => by simp_all [BadTag]) (.inl rfl) (by simp [plainScalar, hu, hk, retagString, hn]) (fun n s => by rw [appendType]; simp [hJ, hT, hk, hn])
    · exact .iface ⟨hu, hk, hn⟩ (fun n s => by rw [appendType]; simp [hJ, hT, hk, hn])
  | array =>
    by_cases hn : (env t).len = 0
    · refine .leaf { type := .arrayLen0, size := 0, typ := some t } (fun c hc => by cases hc <;> simp_all) (fun h => by simp_all [BadKind]) (fun h => by simp_all [BadInterface]) (fun h => by simp_all [BadTag]) (.inl rfl) (by simp [plainScalar, hu, hk, retagString, hn]) (fun n s => by rw [appendType]; simp [hJ, hT, hk, hn])
    · refine .elem { type := .array, size := (env t).size, typ := some t } (fun i f => { f with parent := some i, cap := (env t).len }) (fun c => ⟨fun hc => by cases hc <;> simp_all, fun h => h ▸ .array hu hk hn⟩)
        (fun h => by simp_all [BadKind]) (fun h => by simp_all [BadInterface]) (fun h => by simp_all [BadTag]) rfl (fun _ _ => rfl) rfl (by simp [plainScalar, hk]) (by simp [hk]) (by simp [Tied, hk]) (fun n s => ?_)
      rw [appendType]; simp only [hJ, hT, hk, hn, if_false, Bool.false_eq_true]
      cases appendType env W opts n (s ++ [{ type := .array, size := (env t).size, typ := some t }]) (some (env t).elem) <;> rfl
  | pointer =>
    by_cases he : (env (env t).elem).kind = .struct ∧ 0 < (env (env t).elem).size
    · refine .tied { type := .ptr, size := (env t).size, typ := some t } (fun j => { type := .ptrRecur, size := (env t).size, recurFrame := j, typ := some t }) (fun i f => { f with parent := some i })
        (fun c => ⟨fun hc => by cases hc <;> simp_all, fun h => h ▸ .pointer hu hk⟩) ⟨.inl hk, rfl, he⟩ (by simp [hk]) (fun h => by simp_all [BadKind]) (fun h => by simp_all [BadInterface]) (fun h => by simp_all [BadTag])
        rfl (fun _ => rfl) (fun _ _ => rfl) rfl (fun _ => rfl) (by simp [plainScalar, hk]) (fun n s => ?_)
      rw [appendType]; simp only [hJ, hT, hk, he, if_false, Bool.false_eq_true, if_true, and_self, link_post]
      cases findRType (env t).elem s <;> rfl
    · refine .elem { type := .ptr, size := (env t).size, typ := some t } (fun i f => { f with parent := some i }) (fun c => ⟨fun hc => by cases hc <;> simp_all, fun h => h ▸ .pointer hu hk⟩)
        (fun h => by simp_all [BadKind]) (fun h => by simp_all [BadInterface]) (fun h => by simp_all [BadTag]) rfl (fun _ _ => rfl) rfl (by simp [plainScalar, hk]) (by simp [hk]) (fun h => he h.2.2) (fun n s => ?_)
      rw [appendType]; simp only [hJ, hT, hk, he, if_false, Bool.false_eq_true, link_post]
  | struct =>
    by_cases hn : (env t).fields = []
    · refine .leaf { type := .emptyStruct, size := (env t).size, typ := some t } (fun c hc => by cases hc <;> simp_all) (fun h => by simp_all [BadKind]) (fun h => by simp_all [BadInterface]) (fun h => by simp_all [BadTag]) (.inl rfl)
        (by simp [plainScalar, hu, hk, retagString]) (fun n s => by rw [appendType]; simp [hJ, hT, hk, hn])
    · exact .struct { type := .struct, rtype := some t, size := (env t).size, typ := some t } hu hk rfl rfl (by simp [plainScalar, hk]) (fun n s => by rw [appendType]; simp [hJ, hT, hk, hn])
  | map =>
    by_cases hss : (env (env t).key).kind = .string ∧ (env (env t).elem).kind = .string
    · refine .leaf { type := .mapStringString, rtype := some t, size := (env t).size, typ := some t } (fun c hc => by cases hc <;> simp_all) (fun h => by simp_all [BadKind]) (fun h => by simp_all [BadInterface]) (fun h => by simp_all [BadTag]) (.inr rfl)
        (by simp [plainScalar, hu, hk, retagString]) (fun n s => by rw [appendType]; simp [hJ, hT, hk, hss])
    · have hcc : ∀ c, Child env t c ↔ c = (env t).key ∨ c = (env t).elem := fun c => ⟨fun hc => by cases hc <;> simp_all, fun h => by
        rcases h with rfl | rfl
        · exact .key hu hk hss
        · exact .value hu hk hss⟩
      refine .map { type := .map, rtype := some t, size := (env t).size, mapValueSize := (env (env t).elem).size, mapValueTyp := some (env t).elem, faststr := canUseAssignFaststr env t, typ := some t } (fun j => { type := .mapRecur, size := (env t).size, mapValueSize := (env (env t).elem).size, mapValueTyp := some (env t).elem, faststr := canUseAssignFaststr env t, recurFrame := j, typ := some t })
        (fun i f => { f with parent := some i }) (decide ((env (env t).elem).kind = .struct ∧ 0 < (env (env t).elem).size))
        hcc ⟨hk, by simp⟩
        (fun h => by simp_all [BadKind]) (fun h => by simp_all [BadInterface]) (fun h => by simp_all [BadTag])
        rfl (fun _ => rfl) (fun _ _ => rfl) rfl (fun _ => rfl) (by simp [plainScalar, hk]) (fun n s => ?_)
      rw [appendType]; simp only [hJ, hT, hk, hss, if_false, Bool.false_eq_true, link_post, decide_eq_true_eq]
      cases (if (env (env t).elem).kind = Kind.struct ∧ 0 < (env (env t).elem).size then findRType (env t).elem s else none) with
      | some j => rfl
      | none =>
        simp only []
        cases post (s.length + 1) (fun f => { f with parent := some s.length }) (appendType env W opts n (s ++ [{ type := .map, rtype := some t, size := (env t).size, mapValueSize := (env (env t).elem).size, mapValueTyp := some (env t).elem, faststr := canUseAssignFaststr env t, typ := some t }]) (some (env t).key)) <;> rfl
  | slice =>
    have pl : sliceLeaf (env (env t).elem) = false → ¬ ((env (env t).elem).kind = .struct ∧ 0 < (env (env t).elem).size) → (∀ n s, appendType env W opts (n + 1) s (some t) =
        linkParent s.length (s.length + 1) (appendType env W opts n (s ++ [{ type := .slice, size := (env t).size, typ := some t }]) (some (env t).elem))) → Node env W opts t := fun h1 h2 h3 =>
      .elem { type := .slice, size := (env t).size, typ := some t } (fun i f => { f with parent := some i }) (fun c => ⟨fun hc => by cases hc <;> simp_all, fun h => h ▸ .slice hu hk h1⟩)
        (fun h => by simp_all [BadKind]) (fun h => by simp_all [BadInterface]) (fun h => by simp_all [BadTag]) rfl (fun _ _ => rfl) rfl (by simp [plainScalar, hk]) (by simp [hk]) (fun h => h2 h.2.2) (fun n s => by rw [h3, link_post])
    have lf : sliceLeaf (env (env t).elem) = true → ∀ ty, (retagString ty).isSome = false → (∀ n s, appendType env W opts (n + 1) s (some t) = .ok (s ++ [{ type := ty, size := (env t).size, typ := some t }])) → Node env W opts t := fun h1 ty h2 h3 =>
      .leaf { type := ty, size := (env t).size, typ := some t } (fun c hc => by cases hc <;> simp_all) (fun h => by simp_all [BadKind]) (fun h => by simp_all [BadInterface]) (fun h => by simp_all [BadTag]) (.inl rfl)
        (by simp [plainScalar, hu, hk, h2]) h3
    cases he : (env (env t).elem).kind with
    | struct =>
      by_cases hz : (env (env t).elem).size < 1
      · exact lf (by simp [sliceLeaf, he]; omega) .sliceEmptyStruct rfl (fun n s => by rw [appendType]; simp [hJ, hT, hk, he, hz])
      · have hl : sliceLeaf (env (env t).elem) = false := by simp [sliceLeaf, he]; omega
        refine .tied { type := .slice, size := (env t).size, typ := some t } (fun j => { type := .sliceRecur, size := (env t).size, recurFrame := j, typ := some t }) (fun i f => { f with parent := some i })
          (fun c => ⟨fun hc => by cases hc <;> simp_all, fun h => h ▸ .slice hu hk hl⟩) ⟨.inr (.inl hk), rfl, he, by omega⟩ (by simp [hk]) (fun h => by simp_all [BadKind]) (fun h => by simp_all [BadInterface]) (fun h => by simp_all [BadTag])
          rfl (fun _ => rfl) (fun _ _ => rfl) rfl (fun _ => rfl) (by simp [plainScalar, hk]) (fun n s => ?_)
        rw [appendType]; simp only [hJ, hT, hk, he, hz, if_false, Bool.false_eq_true, link_post]
        cases findRType (env t).elem s <;> rfl
    | string =>
      cases hn : (env (env t).elem).isNumber with
      | true => exact pl (by simp [sliceLeaf, he, hn]) (by simp [he]) (fun n s => by rw [appendType]; simp [hJ, hT, hk, he, hn])
      | false => exact lf (by simp [sliceLeaf, he, hn]) (.sliceOf .str) rfl (fun n s => by rw [appendType]; simp [hJ, hT, hk, he, hn])
    | bool => exact lf (by simp [sliceLeaf, he]) (.sliceOf .bool) rfl (fun n s => by rw [appendType]; simp [hJ, hT, hk, he])
    | int k => exact lf (by simp [sliceLeaf, he]) (.sliceOf (.int k)) rfl (fun n s => by rw [appendType]; simp [hJ, hT, hk, he])
    | float k => exact lf (by simp [sliceLeaf, he]) (.sliceOf (.flt k)) rfl (fun n s => by rw [appendType]; simp [hJ, hT, hk, he])
    | _ => exact pl (by simp [sliceLeaf, he]) (by simp [he]) (fun n s => by rw [appendType]; simp [hJ, hT, hk, he])

end Verif.Proof.TypeGraph

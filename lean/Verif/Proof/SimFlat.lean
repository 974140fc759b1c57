import Verif.Proof.SimBase
/-!
# The token loop follows the type-directed reading: types decoded in one go
(unmarshalers, `any`, empty arrays, slices of scalars, `map[string]string`)
-/
namespace Verif.Proof.Sim
open Verif.Model Verif.Big Verif.Proof.Mem Verif.Proof.Any

/-- The closing token of a composite value. -/
theorem toks_close {toks ts rest : List Token} {t te : Token} {i : Nat} (h : toks.drop i = t :: (ts ++ [te]) ++ rest) :
    toks[i + 1 + ts.length]? = some te := by
  have := congrArg (fun l => l[1 + ts.length]?) h
  simp only [List.getElem?_drop] at this
  rw [Nat.add_assoc, this]
  simp [Nat.add_comm 1]

theorem toks_length {toks l : List Token} {i : Nat} {t : Token} (h : toks.drop i = t :: l) : toks.length = i + (l.length + 1) := by
  have h1 := congrArg List.length h
  simp at h1
  omega

/-- The tokens between the brackets. -/
theorem toks_inner {toks ts rest : List Token} {t te : Token} {i : Nat} (h : toks.drop i = t :: (ts ++ [te]) ++ rest) :
    (toks.take (i + 1 + ts.length)).drop (i + 1) = ts := by
  rw [List.drop_take]
  have e : i + 1 + ts.length - (i + 1) = ts.length := by omega
  rw [e, ← List.drop_drop, h]
  simp

theorem sim_json {pr : Prog} {b : Nat} {rt : TypeId} {size : Nat} {impl : Bool} (hr : Rep pr.x pr.frames (.jsonU rt size impl) b) :
    SimAt pr (.jsonU rt size impl) b := by
  intro s v path off blk rest h
  obtain ⟨f, hf, hty, hsz, hrt, him⟩ := hr
  simp only [dec, jsonB]
  -- first step: go to the label
  have hfirst : (innerOK pr.src v = true → (Model.slice pr.src v.index v.stop).isSome → step pr s = .run { s with pc := .onJSON }) ∧
      (innerOK pr.src v = false → step pr s = .crash) ∧
      ((Model.slice pr.src v.index v.stop) = none → step pr s = .crash ∨ step pr s = .run { s with pc := .onJSON }) := by
    by_cases hl : isLeaf v = true
    · obtain ⟨t, hfl, hidx, hdis⟩ := flatten_leaf hl s.ti
      have htk := h.toks
      rw [hfl] at htk
      have hs := step_loop h.pc (toks_head htk) (by rw [h.si]; exact hf)
      rw [hdis, hty] at hs
      cases v with
      | null i e => exact ⟨fun _ _ => hs, fun hc => by simp [innerOK] at hc, fun _ => .inr hs⟩
      | bool c i e => exact ⟨fun _ _ => hs, fun hc => by simp [innerOK] at hc, fun _ => .inr hs⟩
      | num c i e =>
        refine ⟨fun _ hsl => ?_, fun hc => by simp [innerOK] at hc, fun hn => .inl ?_⟩
        · simp only [JVal.index, JVal.stop] at hsl
          cases hsl' : Model.slice pr.src i e with
          | none => rw [hsl'] at hsl; cases hsl
          | some tv => cases c <;> (simp only [leaf, hsl'] at hs; exact hs)
        · simp only [JVal.index, JVal.stop] at hn
          cases c <;> (simp only [leaf, hn] at hs; exact hs)
      | str i e =>
        simp only [innerOK]
        cases hsl' : Model.slice pr.src (i + 1) (e - 1) with
        | none =>
          simp only [leaf, hsl'] at hs
          exact ⟨fun hc => by simp at hc, fun _ => hs, fun _ => .inl hs⟩
        | some tv =>
          simp only [leaf, hsl'] at hs
          exact ⟨fun _ _ => hs, fun hc => by simp at hc, fun _ => .inr hs⟩
      | arr _ _ _ => cases hl
      | obj _ _ _ => cases hl
    · have hs : step pr s = .run { s with pc := .onJSON } := by
        cases v with
        | arr i es k =>
          have htk := h.toks
          simp only [flatten, List.cons_append] at htk
          have hs := step_loop h.pc (toks_head htk) (by rw [h.si]; exact hf)
          simpa only [dispatch, onArray, hty] using hs
        | obj i es k =>
          have htk := h.toks
          simp only [flatten, List.cons_append] at htk
          have hs := step_loop h.pc (toks_head htk) (by rw [h.si]; exact hf)
          simpa only [dispatch, onObject, hty] using hs
        | null _ _ | bool _ _ _ | num _ _ _ | str _ _ => simp [isLeaf] at hl
      refine ⟨fun _ _ => hs, fun hc => ?_, fun _ => .inr hs⟩
      cases v <;> simp [isLeaf] at hl <;> simp [innerOK] at hc
  -- second step
  obtain ⟨t, ht, hti, hraw⟩ : ∃ t, pr.toks[s.ti]? = some t ∧ t.index = v.index ∧
      rawValue pr s.ti t =
        (Model.slice pr.src v.index v.stop).map fun r => (r, s.ti + (flatten s.ti v).length) := by
    have htk := h.toks
    cases v with
    | null i e => exact ⟨_, toks_head htk, rfl, by simp [rawValue, flatten, JVal.index, JVal.stop]⟩
    | bool c i e => exact ⟨_, toks_head htk, rfl, by cases c <;> simp [rawValue, flatten, JVal.index, JVal.stop]⟩
    | num c i e => exact ⟨_, toks_head htk, rfl, by cases c <;> simp [rawValue, flatten, JVal.index, JVal.stop]⟩
    | str i e => exact ⟨_, toks_head htk, rfl, by simp [rawValue, flatten, JVal.index, JVal.stop]⟩
    | arr i es k =>
      simp only [flatten] at htk
      refine ⟨_, toks_head htk, rfl, ?_⟩
      simp only [rawValue, or_true, if_true]
      rw [toks_close htk]
      simp only [flatten, JVal.index, JVal.stop, List.length_cons, List.length_append, List.length_nil]
      have : s.ti + 1 + (flattenL (s.ti + 1) es).length + 1 = s.ti + ((flattenL (s.ti + 1) es).length + (0 + 1) + 1) := by omega
      rw [this]
    | obj i es k =>
      simp only [flatten] at htk
      refine ⟨_, toks_head htk, rfl, ?_⟩
      simp only [rawValue, true_or, if_true]
      rw [toks_close htk]
      simp only [flatten, JVal.index, JVal.stop, List.length_cons, List.length_append, List.length_nil]
      have : s.ti + 1 + (flattenM (s.ti + 1) es).length + 1 = s.ti + ((flattenM (s.ti + 1) es).length + (0 + 1) + 1) := by omega
      rw [this]
  have hstep2 : step pr { s with pc := .onJSON } = onJSONUnmarshaler pr { s with pc := .onJSON } f t := by
    simp [step, ht, h.si, hf]
  have hp' : ({ s with pc := PC.onJSON } : St).p = .at ⟨path, off⟩ := by simp only [St.p, h.si]; exact h.p
  simp only [onJSONUnmarshaler, hraw, hrt, him, hsz, hp'] at hstep2
  rw [readSeg_at (m := ({ s with pc := PC.onJSON } : St).mem) h.blk] at hstep2
  cases hsl : Model.slice pr.src v.index v.stop with
  | none =>
    rcases hfirst.2.2 hsl with hc | hc
    · exact Halts.one hc (by simp)
    · refine (Reach.one hc).halts (Halts.one (o := .crash) ?_ (by simp))
      rw [hstep2, hsl]; rfl
  | some raw =>
    rw [hsl] at hstep2
    cases hin : innerOK pr.src v with
    | false => exact Halts.one (hfirst.2.1 hin) (by simp)
    | true =>
      have h1 := hfirst.1 hin (by rw [hsl]; rfl)
      cases impl with
      | false => exact (Reach.one h1).halts (Halts.one (o := .crash) (by rw [hstep2]; rfl) (by simp))
      | true =>
        simp only [Option.map_some] at hstep2
        simp only []
        by_cases hle : off + size ≤ blk.length
        · rw [if_pos hle]
          simp only [if_pos hle] at hstep2
          rw [writeSeg_at (m := ({ s with pc := PC.onJSON } : St).mem) h.blk] at hstep2
          simp only [callB]
          cases hbl : blit blk off (fit size (pr.x.unmarshalJSON rt (List.take size (List.drop off blk)) raw).1) with
          | none =>
            rw [hbl] at hstep2
            exact (Reach.one h1).halts (Halts.one (o := .crash) (by rw [hstep2]; rfl) (by simp))
          | some b' =>
            rw [hbl] at hstep2
            obtain ⟨m', hm⟩ := putBlock_total b' h.blk
            simp only [Option.bind_some, hm] at hstep2
            simp only []
            cases he : (pr.x.unmarshalJSON rt (List.take size (List.drop off blk)) raw).2 with
            | none =>
              rw [he] at hstep2
              exact ⟨_, Reach.head h1 (Reach.one hstep2), rfl, h.si, rfl, hm, fun _ _ => rfl, h.dyn⟩
            | some e =>
              rw [he, hti] at hstep2
              exact ⟨_, (Reach.one h1).halts (Halts.one hstep2 (by simp)), hm, h.dyn⟩
        · rw [if_neg hle]
          simp only [if_neg hle] at hstep2
          exact (Reach.one h1).halts (Halts.one hstep2 (by simp))

/-- The pointer of the current frame. -/
theorem Pre.sp {pr : Prog} {s : St} {b : Nat} {path : List Step} {off : Nat} {blk : Block} {v : JVal} {rest : List Token}
    (h : Pre pr s b path off blk v rest) : s.p = .at ⟨path, off⟩ := by simp only [St.p, h.si]; exact h.p

/-- A store that ends the value. -/
theorem post_store {pr : Prog} {s : St} {b w : Nat} {path : List Step} {off : Nat} {blk : Block} {v : JVal} {rest : List Token}
    (h : Pre pr s b path off blk v rest) {sg : Block} {n : Nat}
    (hs : step pr s = match writeSeg s.mem s.p sg with
      | none => .crash
      | some m => .run { s with mem := m, ti := s.ti + n, pc := .valEnd }) :
    Post pr s b w path n (match blit blk off sg with | none => .crash | some b => .ok b) := by
  rw [h.sp, writeSeg_at h.blk] at hs
  cases hbl : blit blk off sg with
  | none => rw [hbl] at hs; exact Halts.one hs (by simp)
  | some b' =>
    rw [hbl] at hs
    obtain ⟨m', hm⟩ := putBlock_total b' h.blk
    simp only [Option.bind_some, hm] at hs
    exact ⟨_, Reach.one hs, rfl, h.si, rfl, hm, fun _ _ => rfl, h.dyn⟩

theorem sim_any {pr : Prog} {b : Nat} (hr : Rep pr.x pr.frames .any b) : SimAt pr .any b := by
  intro s v path off blk rest h
  obtain ⟨f, hf, hty, -⟩ := hr
  have comp : ∀ (t : Token), t.index = v.index → pr.toks[s.ti]? = some t →
      step pr s = (match decodeAny pr.x pr.src (pr.toks.length + 1) (pr.toks.drop s.ti) with
        | .crash => .crash
        | .err _ => .err t.index .unexpectedValue s
        | .ok v tail =>
          match writeSeg s.mem s.p (seg (2 * pr.x.W) (.any v)) with
          | none => .crash
          | some m => .run { s with mem := m, ti := pr.toks.length - tail.length, pc := .valEnd }) →
      Post pr s b 1 path (flatten s.ti v).length (anyB pr.x pr.src v blk off) := by
    intro t hti ht hs
    have hlen : (flatten s.ti v).length + rest.length + s.ti = pr.toks.length := by
      have hlt : s.ti < pr.toks.length := by
        rcases Nat.lt_or_ge s.ti pr.toks.length with hl | hl
        · exact hl
        · rw [List.getElem?_eq_none hl] at ht; cases ht
      have := congrArg List.length h.toks
      simp at this
      omega
    rw [h.toks, decodeAny_flatten pr.x pr.src v _ s.ti rest (by omega)] at hs
    simp only [anyB]
    cases ha : anyOf pr.x pr.src v with
    | none => rw [ha] at hs; exact Halts.one hs (by simp)
    | some r =>
      rw [ha] at hs
      cases r with
      | error e =>
        simp only [outA] at hs
        rw [hti] at hs
        exact ⟨s, Halts.one hs (by simp), put_get h.blk, h.dyn⟩
      | ok a =>
        simp only [outA] at hs ⊢
        refine post_store h ?_
        rw [hs]
        have : pr.toks.length - rest.length = s.ti + (flatten s.ti v).length := by omega
        rw [this]
  by_cases hl : isLeaf v = true
  · have := sim_leaf (w := 1) (rt := none) (size := 0) (impl := false) h hf hl (by rw [hty]; intro hc; cases hc)
    rw [hty] at this
    cases v <;> simp [isLeaf] at hl <;> exact this
  · cases v with
    | arr i es k =>
      have htk := h.toks
      simp only [flatten, List.cons_append] at htk
      have hs := step_loop h.pc (toks_head htk) (by rw [h.si]; exact hf)
      simp only [dispatch, onArray, hty] at hs
      exact comp _ rfl (toks_head htk) hs
    | obj i es k =>
      have htk := h.toks
      simp only [flatten, List.cons_append] at htk
      have hs := step_loop h.pc (toks_head htk) (by rw [h.si]; exact hf)
      simp only [dispatch, onObject, hty] at hs
      exact comp _ rfl (toks_head htk) hs
    | null _ _ | bool _ _ _ | num _ _ _ | str _ _ => simp [isLeaf] at hl

/-- First step on an array. -/
theorem step_arr {pr : Prog} {s : St} {b : Nat} {path : List Step} {off : Nat} {blk : Block} {i : Nat} {es : List JVal} {k : Nat} {rest : List Token} {f : Frame}
    (h : Pre pr s b path off blk (.arr i es k) rest) (hf : pr.frames[b]? = some f) :
    step pr s = onArray pr s f ⟨.array, i, s.ti + 1 + (flattenL (s.ti + 1) es).length, es.length⟩ := by
  have htk := h.toks
  simp only [flatten, List.cons_append] at htk
  exact step_loop h.pc (toks_head htk) (by rw [h.si]; exact hf)

/-- First step on an object. -/
theorem step_obj {pr : Prog} {s : St} {b : Nat} {path : List Step} {off : Nat} {blk : Block} {i : Nat} {ms : List ((Nat × Nat) × JVal)} {k : Nat} {rest : List Token} {f : Frame}
    (h : Pre pr s b path off blk (.obj i ms k) rest) (hf : pr.frames[b]? = some f) :
    step pr s = onObject pr s f ⟨.object, i, s.ti + 1 + (flattenM (s.ti + 1) ms).length, ms.length⟩ := by
  have htk := h.toks
  simp only [flatten, List.cons_append] at htk
  exact step_loop h.pc (toks_head htk) (by rw [h.si]; exact hf)

/-- Types that accept scalars only. -/
theorem sim_scalar {pr : Prog} {b : Nat} {f : Frame} {ty : Ty} (hf : pr.frames[b]? = some f) (hty : f.type = ty.etype)
    (hs : ty = .number ∨ (∃ k, ty = .scalar k) ∨ (∃ k, ty = .quoted k)) : SimAt pr ty b := by
  intro s v path off blk rest h
  have hdec : dec pr.x pr.src pr.options ty v blk off = execB pr.x none 0 false blk off v.index (leaf pr.x pr.src ty.etype v) := by
    rcases hs with rfl | ⟨k, rfl⟩ | ⟨k, rfl⟩ <;> simp only [dec, Ty.etype]
  have hne : ty.etype ≠ .textUnmarshaler := by
    rcases hs with rfl | ⟨k, rfl⟩ | ⟨k, rfl⟩ <;> simp [Ty.etype]
  rw [hdec]
  by_cases hl : isLeaf v = true
  · rw [← hty]
    exact sim_leaf h hf hl (fun hc => absurd (hty ▸ hc) hne)
  · cases v with
    | arr i es k =>
      refine sim_mismatch h hf _ (.inl ⟨i, es, k, rfl, fun t => ?_⟩)
      rcases hs with rfl | ⟨k, rfl⟩ | ⟨k, rfl⟩ <;> simp [onArray, hty, Ty.etype]
    | obj i es k =>
      refine sim_mismatch h hf _ (.inr ⟨i, es, k, rfl, fun t => ?_⟩)
      rcases hs with rfl | ⟨k, rfl⟩ | ⟨k, rfl⟩ <;> simp [onObject, hty, Ty.etype]
    | null _ _ | bool _ _ _ | num _ _ _ | str _ _ => simp [isLeaf] at hl

theorem sim_text {pr : Prog} {b : Nat} {rt : TypeId} {size : Nat} {impl : Bool} (hr : Rep pr.x pr.frames (.textU rt size impl) b) :
    SimAt pr (.textU rt size impl) b := by
  intro s v path off blk rest h
  obtain ⟨f, hf, hty, hsz, hrt, him⟩ := hr
  simp only [dec]
  by_cases hl : isLeaf v = true
  · rw [← hty]
    exact sim_leaf h hf hl (fun _ => ⟨hrt, hsz, him⟩)
  · cases v with
    | arr i es k => exact sim_mismatch h hf _ (.inl ⟨i, es, k, rfl, fun t => by simp [onArray, hty]⟩)
    | obj i es k => exact sim_mismatch h hf _ (.inr ⟨i, es, k, rfl, fun t => by simp [onObject, hty]⟩)
    | null _ _ | bool _ _ _ | num _ _ _ | str _ _ => simp [isLeaf] at hl

theorem sim_array0 {pr : Prog} {b : Nat} (hr : Rep pr.x pr.frames .array0 b) : SimAt pr .array0 b := by
  intro s v path off blk rest h
  obtain ⟨f, hf, hty, -⟩ := hr
  cases v with
  | arr i es k =>
    have hs := step_arr h hf
    simp only [onArray, hty] at hs
    simp only [dec]
    exact ⟨_, Reach.one hs, rfl, h.si, by simp [flatten]; omega, put_get h.blk, fun _ _ => rfl, h.dyn⟩
  | obj i es k => exact sim_mismatch h hf _ (.inr ⟨i, es, k, rfl, fun t => by simp [onObject, hty]⟩)
  | null _ _ | bool _ _ _ | num _ _ _ | str _ _ =>
    simp only [dec]
    rw [← hty]
    exact sim_leaf h hf rfl (by rw [hty]; simp)

theorem sim_sliceES {pr : Prog} {b : Nat} (hr : Rep pr.x pr.frames .sliceES b) : SimAt pr .sliceES b := by
  intro s v path off blk rest h
  obtain ⟨f, hf, hty, -⟩ := hr
  cases v with
  | arr i es k =>
    have hs := step_arr h hf
    simp only [onArray, hty] at hs
    simp only [dec]
    refine post_store h ?_
    rw [hs]
    have : s.ti + 1 + (flattenL (s.ti + 1) es).length + 1 = s.ti + (flatten s.ti (.arr i es k)).length := by simp [flatten]; omega
    rw [this]; rfl
  | obj i es k => exact sim_mismatch h hf _ (.inr ⟨i, es, k, rfl, fun t => by simp [onObject, hty]⟩)
  | null _ _ | bool _ _ _ | num _ _ _ | str _ _ =>
    simp only [dec]
    rw [← hty]
    exact sim_leaf h hf rfl (by rw [hty]; simp)

theorem sim_emptyStruct {pr : Prog} {b : Nat} (hr : Rep pr.x pr.frames .emptyStruct b) : SimAt pr .emptyStruct b := by
  intro s v path off blk rest h
  obtain ⟨f, hf, hty, -⟩ := hr
  cases v with
  | obj i es k => trivial
  | arr i es k => exact sim_mismatch h hf _ (.inl ⟨i, es, k, rfl, fun t => by simp [onArray, hty]⟩)
  | null _ _ | bool _ _ _ | num _ _ _ | str _ _ =>
    simp only [dec]
    rw [← hty]
    exact sim_leaf h hf rfl (by rw [hty]; simp)

theorem sim_ptr {pr : Prog} {b : Nat} {e : Ty} (hr : Rep pr.x pr.frames (.ptr e) b) : SimAt pr (.ptr e) b := by
  intro s v path off blk rest h
  obtain ⟨⟨f, hf, hty, -⟩, -⟩ := hr
  cases v with
  | null i k =>
    simp only [dec]
    rw [← hty]
    exact sim_leaf h hf rfl (by rw [hty]; simp)
  | obj _ _ _ | arr _ _ _ | bool _ _ _ | num _ _ _ | str _ _ => trivial

/-- `map[string]string` on the tokens of the members. -/
theorem mapSS_flatten (x : Ext) (src : Bytes) : ∀ (ms : List ((Nat × Nat) × JVal)) (ti : Nat) (m : List (Key × Block)),
    mapSSLoop x src x.W (flattenM ti ms) m = mapSSB x src ms m
  | [], ti, m => rfl
  | ((i, e), v) :: ms, ti, m => by
    simp only [flattenM]
    cases v with
    | null vi ve =>
      simp only [flatten, List.cons_append, List.nil_append, mapSSLoop, mapSSB]
      cases (slice src (i + 1) (e - 1)).bind x.unescStr with
      | none => rfl
      | some ks => exact mapSS_flatten x src ms _ _
    | str vi ve =>
      simp only [flatten, List.cons_append, List.nil_append, mapSSLoop, mapSSB]
      cases (slice src (i + 1) (e - 1)).bind x.unescStr with
      | none => rfl
      | some ks =>
        cases (slice src (vi + 1) (ve - 1)).bind x.unescStr with
        | none => rfl
        | some vs => exact mapSS_flatten x src ms _ _
    | bool b vi ve => cases b <;> simp [flatten, mapSSLoop, mapSSB, JVal.index]
    | num b vi ve => cases b <;> simp [flatten, mapSSLoop, mapSSB, JVal.index]
    | arr vi es k => simp [flatten, mapSSLoop, mapSSB, JVal.index]
    | obj vi es k => simp [flatten, mapSSLoop, mapSSB, JVal.index]

theorem sim_mapSS {pr : Prog} {b : Nat} (hr : Rep pr.x pr.frames .mapSS b) : SimAt pr .mapSS b := by
  intro s v path off blk rest h
  obtain ⟨f, hf, hty, -⟩ := hr
  cases v with
  | obj i ms k =>
    have hs := step_obj h hf
    have htk := h.toks
    simp only [flatten] at htk
    have hin := toks_inner htk
    have hcl := toks_close htk
    have hlt : ¬ pr.toks.length ≤ s.ti + 1 + (flattenM (s.ti + 1) ms).length := by
      intro hc; rw [List.getElem?_eq_none hc] at hcl; cases hcl
    simp only [onObject, hty] at hs
    simp only [dec]
    by_cases hm : ms = []
    · subst hm
      simp only [List.length_nil, if_true] at hs
      simp only [mapSSB]
      exact post_store h (by rw [hs]; rfl)
    · rw [if_neg (by simpa using hm), if_neg hlt, hin, mapSS_flatten] at hs
      cases hb : mapSSB pr.x pr.src ms [] with
      | none => rw [hb] at hs; exact Halts.one hs (by simp)
      | some r =>
        rw [hb] at hs
        cases r with
        | error p =>
          obtain ⟨j, e⟩ := p
          exact ⟨s, Halts.one hs (by simp), put_get h.blk, h.dyn⟩
        | ok es =>
          simp only [] at hs ⊢
          refine post_store h ?_
          rw [hs]
          have : s.ti + 1 + (flattenM (s.ti + 1) ms).length + 1 = s.ti + (flatten s.ti (.obj i ms k)).length := by simp [flatten]; omega
          rw [this]; rfl
  | arr i es k => exact sim_mismatch h hf _ (.inl ⟨i, es, k, rfl, fun t => by simp [onArray, hty]⟩)
  | null _ _ | bool _ _ _ | num _ _ _ | str _ _ =>
    simp only [dec]
    rw [← hty]
    exact sim_leaf h hf rfl (by rw [hty]; simp)

/-- The result of the element loop as a big-step result. -/
def toRes : SliceRes → Res
  | .ok a => .ok a
  | .err i e a => .err i e a
  | .crash => .crash

theorem onInteger_int_act (x : Ext) (k : IKind) (tv : Bytes) :
    (∃ n c, onInteger x (.scalar (.int k)) tv = .store n c) ∨ (∃ e, onInteger x (.scalar (.int k)) tv = .err e) ∨
      onInteger x (.scalar (.int k)) tv = .crash := by
  simp only [onInteger, storeInt]
  split
  · split
    · exact .inr (.inr rfl)
    · split
      · exact .inr (.inl ⟨_, rfl⟩)
      · split
        · exact .inr (.inr rfl)
        · exact .inr (.inl ⟨_, rfl⟩)
        · exact .inl ⟨_, _, rfl⟩
  · split
    · exact .inr (.inr rfl)
    · exact .inr (.inl ⟨_, rfl⟩)
    · exact .inl ⟨_, _, rfl⟩

theorem storeFlt_act (n : Nat) (r : Except Nat Flt) : (∃ m c, storeFlt n r = .store m c) ∨ (∃ e, storeFlt n r = .err e) := by
  cases r with
  | ok f => exact .inl ⟨_, _, rfl⟩
  | error e => exact .inr ⟨_, rfl⟩

/-- Actions of elements: a store, a clear, an error, or a crash. -/
theorem elemAct_cases (x : Ext) (src : Bytes) (k : SKind) (v : JVal) :
    (∃ n c, elemAct x src k v = .store n c) ∨ (∃ n, elemAct x src k v = .clear n) ∨ (∃ e, elemAct x src k v = .err e) ∨
      elemAct x src k v = .crash := by
  cases v with
  | null i e => exact .inr (.inl ⟨_, rfl⟩)
  | bool b i e => cases k <;> simp [elemAct]
  | num b i e =>
    cases k with
    | bool => simp [elemAct]
    | str => simp [elemAct]
    | int k =>
      cases b
      · simp [elemAct]
      · simp only [elemAct]
        cases hsl : Model.slice src i e with
        | none => simp
        | some tv =>
          have := onInteger_int_act x k tv
          rcases this with h | h | h
          · exact .inl h
          · exact .inr (.inr (.inl h))
          · exact .inr (.inr (.inr h))
    | flt k =>
      simp only [elemAct]
      cases hsl : Model.slice src i e with
      | none => simp
      | some tv =>
        have := storeFlt_act ((SKind.flt k).bytes x) (if b = true then intFlt x k tv else parseFlt x k tv)
        rcases this with h | h
        · exact .inl h
        · exact .inr (.inr (.inl h))
  | str i e =>
    cases k <;> simp [elemAct]
    split <;> simp
  | arr _ _ _ => simp [elemAct]
  | obj _ _ _ => simp [elemAct]

/-- The head token of an element determines its action. -/
theorem elemOf_head (x : Ext) (src : Bytes) (k : SKind) (v : JVal) (ti : Nat) :
    ∃ t ts, flatten ti v = t :: ts ∧ t.index = v.index ∧ elemOf x src k t = elemAct x src k v ∧
      (isLeaf v = true → ts = []) := by
  cases v with
  | null i e => exact ⟨_, _, rfl, rfl, rfl, fun _ => rfl⟩
  | bool b i e => cases b <;> exact ⟨_, _, rfl, rfl, by cases k <;> rfl, fun _ => rfl⟩
  | num b i e => cases b <;> exact ⟨_, _, rfl, rfl, by cases k <;> rfl, fun _ => rfl⟩
  | str i e => exact ⟨_, _, rfl, rfl, by cases k <;> rfl, fun _ => rfl⟩
  | arr i es e => exact ⟨_, _, rfl, rfl, rfl, fun h => by cases h⟩
  | obj i es e => exact ⟨_, _, rfl, rfl, rfl, fun h => by cases h⟩

theorem sliceElems_flatten (x : Ext) (src : Bytes) (k : SKind) : ∀ (vs : List JVal) (ti n : Nat) (arr : Block),
    toRes (sliceElems x src k (flattenL ti vs) n arr) =
      elemsB (elemB x src k) (k.bytes x) vs arr (n * k.bytes x)
  | [], ti, n, arr => rfl
  | v :: vs, ti, n, arr => by
    obtain ⟨t, ts, hfl, hidx, hact, hleaf⟩ := elemOf_head x src k v ti
    have hE : elemB x src k v arr (n * k.bytes x) = execB x none 0 false arr (n * k.bytes x) v.index (elemAct x src k v) := rfl
    simp only [flattenL, elemsB]
    rw [hfl, List.cons_append, sliceElems, hact, hE]
    have hnext : n * k.bytes x + k.bytes x = (n + 1) * k.bytes x := by rw [Nat.succ_mul]
    rcases elemAct_cases x src k v with ⟨m, c, ha⟩ | ⟨m, ha⟩ | ⟨e, ha⟩ | ha
    · rw [ha]
      simp only [execB]
      have hlf : isLeaf v = true := by cases v <;> simp [elemAct] at ha <;> rfl
      cases hb : blit arr (n * k.bytes x) (seg m c) with
      | none => rfl
      | some arr' =>
        simp only []
        rw [hleaf hlf, List.nil_append, sliceElems_flatten x src k vs _ (n + 1) arr', hnext]
    · rw [ha]
      simp only [execB]
      have hlf : isLeaf v = true := by cases v <;> simp [elemAct] at ha <;> rfl
      cases hb : blit arr (n * k.bytes x) (zeros m) with
      | none => rfl
      | some arr' =>
        simp only []
        rw [hleaf hlf, List.nil_append, sliceElems_flatten x src k vs _ (n + 1) arr', hnext]
    · rw [ha]; simp only [execB, toRes, hidx]
    · rw [ha]; rfl

theorem sim_sliceOf {pr : Prog} {b : Nat} {k : SKind} (hr : Rep pr.x pr.frames (.sliceOf k) b) : SimAt pr (.sliceOf k) b := by
  intro s v path off blk rest h
  obtain ⟨f, hf, hty, -⟩ := hr
  cases v with
  | arr i vs ie =>
    have hs := step_arr h hf
    have htk := h.toks
    simp only [flatten] at htk
    have hin := toks_inner htk
    have hcl := toks_close htk
    have hlt : ¬ (s.ti + 1 + (flattenL (s.ti + 1) vs).length < s.ti + 1 ∨ pr.toks.length < s.ti + 1 + (flattenL (s.ti + 1) vs).length) := by
      rintro (hc | hc)
      · omega
      · rw [List.getElem?_eq_none (by omega)] at hcl; cases hcl
    simp only [onArray, hty, onSliceOf] at hs
    simp only [dec, sliceOfB]
    by_cases hm : vs = []
    · subst hm
      simp only [List.length_nil, Nat.zero_lt_one, if_true] at hs
      simp only [if_true]
      exact post_store h (by rw [hs]; rfl)
    · have hpos : 0 < vs.length := List.length_pos_iff.2 hm
      rw [if_neg (by omega : ¬ vs.length < 1), h.sp, readCell_at h.blk] at hs
      rw [if_neg hm]
      cases hh : sliceHdr blk[off]? with
      | none => rw [hh] at hs; exact Halts.one hs (by simp)
      | some p =>
        obtain ⟨l, c, a⟩ := p
        rw [hh] at hs
        simp only [] at hs ⊢
        rw [if_neg hlt, hin] at hs
        have hlenF : (flattenL (s.ti + 1) vs).length + 2 = (flatten s.ti (.arr i vs ie)).length := by simp [flatten]
        rw [hlenF] at hs
        by_cases hc : c < vs.length
        · rw [if_pos hc] at hs ⊢
          have he := sliceElems_flatten pr.x pr.src k vs (s.ti + 1) 0 (zeros (vs.length * k.bytes pr.x))
          rw [Nat.zero_mul] at he
          rw [← he]
          cases hse : sliceElems pr.x pr.src k (flattenL (s.ti + 1) vs) 0 (zeros (vs.length * k.bytes pr.x)) with
          | crash => rw [hse] at hs; exact Halts.one hs (by simp)
          | err j e arr =>
            rw [hse] at hs
            simp only [] at hs
            exact ⟨s, Halts.one hs (by simp), put_get h.blk, h.dyn⟩
          | ok arr =>
            rw [hse] at hs
            simp only [] at hs
            simp only [toRes]
            exact post_store h (by rw [hs, h.sp]; rfl)
        · rw [if_neg hc] at hs ⊢
          have he := sliceElems_flatten pr.x pr.src k vs (s.ti + 1) 0 (a.take (vs.length * k.bytes pr.x))
          rw [Nat.zero_mul] at he
          rw [← he]
          cases hse : sliceElems pr.x pr.src k (flattenL (s.ti + 1) vs) 0 (a.take (vs.length * k.bytes pr.x)) with
          | crash => rw [hse] at hs; exact Halts.one hs (by simp)
          | err j e arr =>
            rw [hse] at hs
            simp only [] at hs
            simp only [toRes]
            rw [writeSeg_at h.blk] at hs
            cases hbl : blit blk off (seg (3 * pr.x.W) (.slice l c (arr ++ a.drop (vs.length * k.bytes pr.x)))) with
            | none => rw [hbl] at hs; exact Halts.one hs (by simp)
            | some b' =>
              rw [hbl] at hs
              obtain ⟨m', hm'⟩ := putBlock_total b' h.blk
              simp only [Option.bind_some, hm'] at hs
              exact ⟨_, Halts.one hs (by simp), hm', h.dyn⟩
          | ok arr =>
            rw [hse] at hs
            simp only [] at hs
            simp only [toRes]
            exact post_store h (by rw [hs, h.sp]; rfl)
  | obj i es k => exact sim_mismatch h hf _ (.inr ⟨i, es, k, rfl, fun t => by simp [onObject, hty]⟩)
  | null _ _ | bool _ _ _ | num _ _ _ | str _ _ =>
    simp only [dec]
    rw [← hty]
    exact sim_leaf h hf rfl (by rw [hty]; simp)

end Verif.Proof.Sim

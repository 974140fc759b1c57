import Verif.Proof.CausalOpen
/-!
# Runs on documents that agree up to some token
-/
namespace Verif.Proof.Causal
open Verif.Model Verif.Spec Verif.Big Verif.Proof Verif.Proof.Judge Verif.Proof.Place Verif.Proof.Term

variable {i p z : Nat} {pr : Prog} {src' : Bytes} {toks' : List Token}

theorem exec_other {s : St} {f : Frame} {t : Token} (a : Act) : exec pr s f t a = exec (other pr src' toks') s f t a := by
  cases a <;> rfl

/-- Tokens that are settled: the same state gives the same outcome, except at keys. -/
theorem dispatch_same (h : Ag pr src' toks' i p z) {s : St} {f : Frame} {t : Token} (ht : pr.toks[s.ti]? = some t) (hs : Settled p z t t) (hk : t.type ≠ .key) :
    dispatch pr s f t = dispatch (other pr src' toks') s f t := by
  unfold dispatch
  cases hty : t.type <;> simp only
  · exact exec_other _
  · exact exec_other _
  · rw [slice_take h.take (hs.2.2 (not_con hty (by simp) (by simp)))]
    simp only [other]
    split
    · rfl
    · exact exec_other _
  · rw [slice_take h.take (hs.2.2 (not_con hty (by simp) (by simp)))]
    simp only [other]
    split
    · rfl
    · exact exec_other _
  · have := hs.2.2 (not_con hty (by simp) (by simp))
    rw [slice_take h.take (show t.end_ - 1 ≤ z by omega)]
    simp only [other]
    split
    · rfl
    · exact exec_other _
  · exact exec_other _
  · exact onArray_same h ht (.inl hty) (hs.2.1 (.inl hty))
  · rfl
  · exact onObject_same h ht hty (hs.2.1 (.inr hty))
  · rfl
  · exact absurd hty hk

theorem key_same (h : Ag pr src' toks' i p z) {s : St} {f : Frame} {t : Token} (hs : Settled p z t t) (hk : t.type = .key) (h1 : f.type ≠ .struct) (h2 : f.type ≠ .structRecur) :
    onKey pr s f t = onKey (other pr src' toks') s f t := by
  have := hs.2.2 (not_con hk (by simp) (by simp))
  have e := slice_take h.take (a := t.index + 1) (show t.end_ - 1 ≤ z by omega)
  unfold onKey
  split
  · exact absurd ‹_› h1
  · exact absurd ‹_› h2
  · simp only [e]
  · simp only [e]
  · rfl

theorem key_K (h : Ag pr src' toks' i p z) {ti si : Nat} {pc : PC} {dyn dyn' : Nat → Dyn} {mem mem' : Block} {f : Frame} {t : Token} (ht : pr.toks[ti]? = some t) (hs : Settled p z t t) (hk : t.type = .key)
    (hd : D dyn dyn') : K i p (onKey pr ⟨ti, si, pc, dyn, mem⟩ f t) (onKey (other pr src' toks') ⟨ti, si, pc, dyn', mem'⟩ f t) := by
  by_cases hf : f.type = .struct ∨ f.type = .structRecur
  · have key : ∀ o, K i p
        (match scanKeys pr.x pr.src o f.fields none (pr.toks.drop ti) ti with
          | .crash => .crash
          | .unknown i => .err i .unknownField ⟨ti, si, pc, dyn, mem⟩
          | .brk ti => .run ⟨ti + 1, si, pc, dyn, mem⟩
          | .found ti fi => .run ⟨ti + 1, fi, pc, dyn, mem⟩)
        (match scanKeys pr.x src' o f.fields none (toks'.drop ti) ti with
          | .crash => .crash
          | .unknown i => .err i .unknownField ⟨ti, si, pc, dyn', mem'⟩
          | .brk ti => .run ⟨ti + 1, si, pc, dyn', mem'⟩
          | .found ti fi => .run ⟨ti + 1, fi, pc, dyn', mem'⟩) := by
      intro o
      have hK := scan_K (x := pr.x) (o := o) (tbl := f.fields) h.take _ _ none ti (h.al ti) (fun _ u hu => by
        rw [List.getElem?_drop, Nat.add_zero, ht] at hu
        cases hu; exact hk)
      cases hr : scanKeys pr.x pr.src o f.fields none (pr.toks.drop ti) ti with
      | crash => exact .left
      | unknown j =>
        rw [hr] at hK
        by_cases hj : j = i
        · rcases hK hj with hx | hx
          · simp only [hx]; exact .right
          · simp only [hx, hj]; exact .same
        · exact .other hj
      | brk q =>
        rw [hr] at hK
        rcases hK with hx | hx
        · exact .late hx
        · simp only [hx]; exact .go ⟨rfl, rfl, rfl, hd⟩
      | found q fi =>
        rw [hr] at hK
        rcases hK with hx | hx
        · exact .late hx
        · simp only [hx]; exact .go ⟨rfl, rfl, rfl, hd⟩
    unfold onKey
    simp only [other]
    rcases hf with hf | hf
    · simp only [hf]
      split
      · exact .left
      · exact key _
    · simp only [hf]
      split
      · exact .left
      · exact key _
  · exact .eq (key_same h hs hk (fun e => hf (.inl e)) (fun e => hf (.inr e))) (key_C hd)

theorem dispatch_K (h : Ag pr src' toks' i p z) (hj : Judges pr) {ti si : Nat} {pc : PC} {dyn dyn' : Nat → Dyn} {mem mem' : Block} {f : Frame} {t t' : Token} (hf : f ∈ pr.frames) (ht : pr.toks[ti]? = some t)
    (hty : t'.type = t.type) (hso : Settled p z t t' ∨ Open p t t') (hd : D dyn dyn') : K i p (dispatch pr ⟨ti, si, pc, dyn, mem⟩ f t) (dispatch (other pr src' toks') ⟨ti, si, pc, dyn', mem'⟩ f t') := by
  rcases hso with hs | ho
  · have he := hs.1
    subst he
    by_cases hk : t'.type = .key
    · unfold dispatch
      simp only [hk]
      exact key_K h ht hs hk hd
    · exact .eq (dispatch_same h ht hs hk) (dispatch_C (pr := other pr src' toks') hj hf hd)
  · unfold dispatch
    rw [hty]
    rcases ho.1 with hc | hc
    · simp only [hc]; exact array_K h ht ho hd
    · simp only [hc]; exact object_K h ht ho hd

theorem valEnd_K (h : Ag pr src' toks' i p z) {ti si : Nat} {pc : PC} {dyn dyn' : Nat → Dyn} {mem mem' : Block} {f : Frame} (hd : D dyn dyn') :
    K i p (onValEnd pr ⟨ti, si, pc, dyn, mem⟩ f) (onValEnd (other pr src' toks') ⟨ti, si, pc, dyn', mem'⟩ f) := by
  unfold onValEnd
  simp only [other]
  split
  · exact .go ⟨rfl, rfl, rfl, hd⟩
  split
  · exact .left
  split
  · exact .go ⟨rfl, rfl, rfl, hd⟩
  · have hd' : D (upd dyn si fun y => { y with len := y.len + 1 }) (upd dyn' si fun y => { y with len := y.len + 1 }) :=
      hd.upd si fun _ _ h1 h2 => ⟨by simp [h1], h2⟩
    rw [(hd' si).1]
    split
    · split
      · exact .left
      · rename_i n hn
        rcases skip_K _ _ _ _ _ (h.al ti) hn with hx | hx
        · exact .late hx
        · simp only [hx]; exact .go ⟨rfl, rfl, rfl, hd'⟩
    · exact .go ⟨rfl, rfl, rfl, hd'.upd _ fun _ _ h1 h2 => ⟨h1, h2⟩⟩
  · exact .go ⟨rfl, rfl, rfl, hd.upd _ fun _ _ h1 h2 => ⟨h1, h2⟩⟩
  · exact .go ⟨rfl, rfl, rfl, hd⟩
  · exact .go ⟨rfl, rfl, rfl, hd⟩
  · exact .go ⟨rfl, rfl, rfl, hd⟩
  · exact .go ⟨rfl, rfl, rfl, hd⟩

theorem json_K (h : Ag pr src' toks' i p z) {ti si : Nat} {pc : PC} {dyn dyn' : Nat → Dyn} {mem mem' : Block} {f : Frame} {t t' : Token} (ht : pr.toks[ti]? = some t) (hso : Settled p z t t' ∨ Open p t t') (hd : D dyn dyn')
    (hj : ∀ rt, f.rtype = some rt → ∀ old old' b, (pr.x.unmarshalJSON rt old b).2 = (pr.x.unmarshalJSON rt old' b).2) :
    K i p (onJSONUnmarshaler pr ⟨ti, si, pc, dyn, mem⟩ f t) (onJSONUnmarshaler (other pr src' toks') ⟨ti, si, pc, dyn', mem'⟩ f t') := by
  rcases hso with hs | ho
  · have he := hs.1
    subst he
    refine .eq (o1 := onJSONUnmarshaler (other pr src' toks') ⟨ti, si, pc, dyn, mem⟩ f t') ?_ (json_C (pr := other pr src' toks') hd hj)
    unfold onJSONUnmarshaler
    simp only [rawValue_same h ht hs]
  · unfold onJSONUnmarshaler
    split
    · rename_i raw tj rt old hraw h1 h2 h3
      have htj : p ≤ tj := by
        have hp := ho.2.1
        simp only [rawValue, ho.1.symm, if_true] at hraw
        split at hraw
        · cases hraw
        · simp only [Option.map_eq_some_iff, Prod.mk.injEq] at hraw
          obtain ⟨_, _, -, h2⟩ := hraw
          omega
      simp only
      split
      · exact .left
      · split
        · exact .other (h.ne ht ho)
        · exact .late htj
    · exact .left

theorem step_K (h : Ag pr src' toks' i p z) (hj : Judges pr) {s s' : St} (hc : Ctl s s') (hp : s.ti < p) (ha : AtJSON pr s) : K i p (step pr s) (step (other pr src' toks') s') := by
  obtain ⟨ti, si, pc, dyn, mem⟩ := s
  obtain ⟨ti', si', pc', dyn', mem'⟩ := s'
  obtain ⟨h1, h2, h3, hd⟩ := hc
  cases h1; cases h2; cases h3
  obtain ⟨t, t', g1, g2, g3, g4, g5, g6⟩ := h.tok ti hp
  unfold step
  simp only [other]
  cases pc with
  | loop =>
    simp only [g1, g2]
    cases hf : pr.frames[si]? with
    | none => exact .left
    | some f => exact dispatch_K h hj (List.mem_of_getElem? hf) g1 g3 g6 hd
  | recurObjEnd =>
    simp only []
    cases pr.frames[si]? with
    | none => exact .left
    | some f => exact .of (recurObjEnd_C hd)
  | valEnd =>
    simp only []
    cases pr.frames[si]? with
    | none => exact .left
    | some f => exact valEnd_K h hd
  | onPtr => exact .of (ptr_C hd)
  | onJSON =>
    simp only [g1, g2]
    obtain ⟨⟨f, hm, hf, hft⟩, -⟩ := ha rfl
    simp only [show pr.frames[si]? = some f from hf]
    exact json_K h g1 g6 hd fun rt hrt => (hj f hm rt hrt).1 hft

/-- Behind the token `p` there is no error at byte `i`. -/
theorem run_late (h : Ag pr src' toks' i p z) {e : Err} {s1 : St} : ∀ (n : Nat) (s : St), p ≤ s.ti → run pr n s ≠ .err i e s1
  | 0, s, _, hr => by simp [run] at hr
  | n + 1, s, hp, hr => by
    rw [run] at hr
    have hT : TokOK pr.toks := by obtain ⟨v, hv⟩ := h.tree; rw [hv]; exact tokOK_flatten v
    cases hs : step pr s with
    | run s2 => rw [hs] at hr; exact run_late h n s2 (Nat.le_trans hp (step_mono hT hs)) hr
    | done _ => rw [hs] at hr; cases hr
    | crash => rw [hs] at hr; cases hr
    | err j e' s2 =>
      rw [hs] at hr
      cases hr
      obtain ⟨m, u, hu, hi⟩ := mem_idx (ErrIdx.step_idx hs)
      rw [List.getElem?_drop] at hu
      have := (h.idx _ u hu hi).1
      omega

theorem run_K (h : Ag pr src' toks' i p z) (hj : Judges pr) {e : Err} {s1 : St} : ∀ (n : Nat) {s s' : St}, Ctl s s' → AtJSON pr s → run pr n s = .err i e s1 →
    ∀ n', (∀ s2, run (other pr src' toks') n' s' ≠ .run s2) → run (other pr src' toks') n' s' = .crash ∨ ∃ s2, run (other pr src' toks') n' s' = .err i e s2
  | 0, _, _, _, _, hr, _, _ => by simp [run] at hr
  | n + 1, s, s', hc, ha, hr, n', hn => by
    by_cases hp : s.ti < p
    · cases n' with
      | zero => exact absurd rfl (hn s')
      | succ n' =>
        have hK := step_K h hj hc hp ha
        simp only [run] at hr hn ⊢
        cases hs : step pr s with
        | run s2 =>
          rw [hs] at hr hK
          rcases hK with hx | hx | ⟨s2', hx, hc'⟩
          · exact absurd hr (run_late h n s2 hx)
          · rw [hx]; exact .inl rfl
          · rw [hx] at hn ⊢
            exact run_K h hj n hc' (step_json hs) hr n' hn
        | err j e' s2 =>
          rw [hs] at hr hK
          cases hr
          rcases hK rfl with hx | ⟨s2', hx⟩
          · rw [hx]; exact .inl rfl
          · rw [hx]; exact .inr ⟨s2', rfl⟩
        | done _ => rw [hs] at hr; cases hr
        | crash => rw [hs] at hr; cases hr
    · exact absurd hr (run_late h (n + 1) s (by omega))

/-- Documents that agree up to the token at which there is an error. -/
theorem decode_K {x : Ext} {d : Decoder} (hj : MethodsJudge x d) {src src' : Bytes} {v v' : JVal} {m m' : Block} {o : Option Options} {r r' : DecodeRes} {e : Err} {i p z : Nat}
    (hA : ∀ pr : Prog, pr.src = src → pr.toks = flatten 0 v → Ag pr src' (flatten 0 v') i p z)
    (h : decode x d src (.ok v) (some m) o = some r) (he : r.err = some e) (hi : r.errIndex = i) (h' : decode x d src' (.ok v') (some m') o = some r') :
    r'.err = some e ∧ r'.errIndex = i := by
  obtain ⟨fr, dyn, calls⟩ := d
  cases fr with
  | nil => simp [decode] at h
  | cons f0 fs =>
    simp only [decode] at h h'
    generalize hpr : ({ x := x, src := src, toks := flatten 0 v, frames := f0 :: fs, options := o, epoch := calls } : Prog) = pr at h
    have hpr' : ({ x := x, src := src', toks := flatten 0 v', frames := f0 :: fs, options := o, epoch := calls } : Prog) = other pr src' (flatten 0 v') := by subst hpr; rfl
    rw [hpr'] at h'
    have hj' : Judges pr := by subst hpr; exact hj
    have hG := hA pr (by subst hpr; rfl) (by subst hpr; rfl)
    have hT : TokOK (other pr src' (flatten 0 v')).toks := tokOK_flatten v'
    have hst := run_stops (pr := other pr src' (flatten 0 v')) hT dyn m'
    cases h1 : run pr (fuelFor pr) (initSt dyn m) with
    | err j e' s =>
      rw [h1] at h
      cases h
      cases he
      have hij : j = i := Int.ofNat.inj hi
      subst hij
      rcases run_K hG hj' _ (init_C (fun i => ⟨rfl, rfl⟩) m m') (fun hh => by cases hh) h1 _ hst with hx | ⟨s2, hx⟩
      · rw [hx] at h'; cases h'
      · rw [hx] at h'; cases h'; exact ⟨rfl, rfl⟩
    | done s =>
      rw [h1] at h
      simp only [] at h
      split at h
      · cases h
      · cases h; cases he
    | run s => rw [h1] at h; cases h
    | crash => rw [h1] at h; cases h

end Verif.Proof.Causal

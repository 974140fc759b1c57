import Verif.Proof.ValComp
/-!
# The reading on memory blocks agrees with the reading on values: maps, structs, and all types
-/
namespace Verif.Proof.Val
open Verif.Model Verif.Big Verif.Spec Verif.Proof.Mem

/-! ## Maps -/

theorem entries_lookup {vsz : Nat} {P : Block → Nat → Val → Prop} (k : Key) : ∀ {es : List (Key × Block)} {Vs : List (Key × Val)}, HoldsEntries vsz P es Vs →
    (lookupKey k es = none ∧ lookupV k Vs = none) ∨ ∃ eb W, lookupKey k es = some eb ∧ lookupV k Vs = some W ∧ eb.length = vsz ∧ P eb 0 W
  | [], [], _ => .inl ⟨rfl, rfl⟩
  | [], _ :: _, h => h.elim
  | _ :: _, [], h => h.elim
  | e :: es, W :: Ws, h => by
    obtain ⟨h1, h2, h3, h4⟩ := h
    simp only [lookupKey, lookupV, h1]
    split
    · exact .inr ⟨_, _, rfl, rfl, h2, h3⟩
    · exact entries_lookup k h4

theorem entries_put {vsz : Nat} {P : Block → Nat → Val → Prop} {k : Key} {eb : Block} {W : Val} (hl : eb.length = vsz) (hp : P eb 0 W) :
    ∀ {es : List (Key × Block)} {Vs : List (Key × Val)}, HoldsEntries vsz P es Vs → lookupKey k es ≠ none →
      HoldsEntries vsz P (putKey k eb es) (assignV k W Vs)
  | [], [], _, hk => absurd rfl hk
  | [], _ :: _, h, _ => h.elim
  | _ :: _, [], h, _ => h.elim
  | e :: es, V :: Vs, h, hk => by
    obtain ⟨h1, h2, h3, h4⟩ := h
    simp only [lookupKey] at hk
    simp only [putKey, assignV, h1]
    rw [h1] at hk
    by_cases hs : V.1.same k = true
    · rw [if_pos hs, if_pos hs]; exact ⟨rfl, hl, hp, h4⟩
    · rw [if_neg hs, if_neg hs]
      rw [if_neg hs] at hk
      exact ⟨h1, h2, h3, entries_put hl hp h4 hk⟩

theorem entries_add {vsz : Nat} {P : Block → Nat → Val → Prop} {k : Key} {eb : Block} {W : Val} (hl : eb.length = vsz) (hp : P eb 0 W) :
    ∀ {es : List (Key × Block)} {Vs : List (Key × Val)}, HoldsEntries vsz P es Vs → lookupKey k es = none →
      HoldsEntries vsz P (es ++ [(k, eb)]) (assignV k W Vs)
  | [], [], _, _ => ⟨rfl, hl, hp, trivial⟩
  | [], _ :: _, h, _ => h.elim
  | _ :: _, [], h, _ => h.elim
  | e :: es, V :: Vs, h, hk => by
    obtain ⟨h1, h2, h3, h4⟩ := h
    simp only [lookupKey] at hk
    rw [h1] at hk
    simp only [assignV]
    by_cases hs : V.1.same k = true
    · rw [if_pos hs] at hk; cases hk
    · rw [if_neg hs]
      rw [if_neg hs] at hk
      exact ⟨h1, h2, h3, entries_add hl hp h4 hk⟩

theorem put_add {k : Key} {b eb : Block} : ∀ {es : List (Key × Block)}, lookupKey k es = none → putKey k b (es ++ [(k, eb)]) = es ++ [(k, b)]
  | [], _ => by simp [putKey, same_refl]
  | e :: es, h => by
    simp only [lookupKey] at h
    by_cases hs : e.1.same k = true
    · rw [if_pos hs] at h; cases h
    · rw [if_neg hs] at h
      simp only [List.cons_append, putKey, if_neg hs, put_add h]

theorem lookup_add {k : Key} {eb : Block} : ∀ {es : List (Key × Block)}, lookupKey k es = none → lookupKey k (es ++ [(k, eb)]) = some eb
  | [], _ => by simp [lookupKey, same_refl]
  | e :: es, h => by
    simp only [lookupKey] at h
    by_cases hs : e.1.same k = true
    · rw [if_pos hs] at h; cases h
    · rw [if_neg hs] at h
      simp only [List.cons_append, lookupKey, if_neg hs, lookup_add h]

theorem map_rel {x : Ext} {src : Bytes} {vsz : Nat} {P : Block → Nat → Val → Prop} (hP : Loc vsz P) {z : Val} (hz : ∀ n off, off + vsz ≤ n → P (zeros n) off z)
    {f : JVal → Block → Nat → Res} {g : JVal → Val → R Val} (hfg : Corr vsz P f g) {k : KeyTy} {fresh : Bool} :
    ∀ (ms : List ((Nat × Nat) × JVal)) (b : Block) (off : Nat) (es : List (Key × Block)) (Vs : List (Key × Val)),
      off + x.W ≤ b.length → b[off]? = some (.map es) → HoldsEntries vsz P es Vs →
      Rel (fun b' Ws => off + x.W ≤ b'.length ∧ ∃ es', b'[off]? = some (.map es') ∧ HoldsEntries vsz P es' Ws) b off x.W
        (mapB x src f k vsz fresh ms b off) (mapV x src g k z fresh ms Vs)
  | [], b, off, es, Vs, hl, hc, he => by
    exact ⟨⟨hl, es, hc, he⟩, Frm.refl _ _ _⟩
  | ((i, e), v) :: ms, b, off, es, Vs, hl, hc, he => by
    have hW := Sim.W_pos x
    unfold mapB mapV
    cases hs : Model.slice src (i + 1) (e - 1) with
    | none => trivial
    | some key =>
      simp only [Option.bind_some]
      cases hk : k.key x key with
      | none => trivial
      | some r =>
        cases r with
        | error er => exact ⟨rfl, rfl, ⟨hl, es, hc, he⟩, Frm.refl _ _ _⟩
        | ok k' =>
          simp only []
          -- the entry
          obtain ⟨b1, es1, eb, old, a1, a2, a3, a4, a5, a6, a7, a8⟩ : ∃ b1 es1 eb old, assignEntry x.W vsz b ⟨[], off⟩ k' = some b1 ∧ b1[off]? = some (.map es1) ∧
              lookupKey k' es1 = some eb ∧ eb.length = vsz ∧ P eb 0 old ∧ old = (lookupV k' Vs).getD z ∧ Frm b b1 off x.W ∧
              (∀ eb' W, eb'.length = vsz → P eb' 0 W → HoldsEntries vsz P (putKey k' eb' es1) (assignV k' W Vs)) := by
            unfold assignEntry
            simp only [readCell, getBlock, Option.bind_some, hc, mapHdr]
            rcases entries_lookup k' he with ⟨h1, h2⟩ | ⟨eb, W, h1, h2, h3, h4⟩
            · rw [h1]
              obtain ⟨b1, hb1⟩ := (blit_isSome (b := b) (off := off) (s := seg x.W (.map (es ++ [(k', zeros vsz)])))).2 (by rw [seg_length]; exact hl)
              have hfb := frm_blit hb1
              rw [seg_length] at hfb
              refine ⟨b1, es ++ [(k', zeros vsz)], zeros vsz, z, ?_, Sim.blit_seg_get hW hb1, lookup_add h1, zeros_length _, hz _ _ (by omega), by rw [h2]; rfl, hfb, ?_⟩
              · simp [writeSeg, getBlock, hb1, putBlock]
              · intro eb' W' q1 q2
                rw [put_add h1]
                exact entries_add q1 q2 he h1
            · rw [h1]
              exact ⟨b, es, eb, W, rfl, hc, h1, h3, h4, by rw [h2]; rfl, Frm.refl _ _ _, fun eb' W' q1 q2 => entries_put q1 q2 he (by rw [h1]; simp)⟩
          have hg : getBlock b1 [⟨off, .entry k'⟩] = some eb := by simp [getBlock, a2, ownedBlock, a3]
          simp only [a1, hg]
          -- clearing
          obtain ⟨eb2, c1, c2, c3⟩ : ∃ eb2, (if fresh = true then blit eb 0 (zeros vsz) else some eb) = some eb2 ∧ eb2.length = vsz ∧
              P eb2 0 (if fresh = true then z else (lookupV k' Vs).getD z) := by
            cases fresh with
            | false => exact ⟨eb, rfl, a4, by simpa [← a6] using a5⟩
            | true =>
              obtain ⟨eb2, hb2⟩ := (blit_isSome (b := eb) (off := 0) (s := zeros vsz)).2 (by rw [zeros_length]; omega)
              have hl2 := blit_length hb2
              refine ⟨eb2, by simpa using hb2, by omega, ?_⟩
              simp only [if_true]
              refine hP.agree (hz vsz 0 (by omega)) (fun j _ h2 => ?_) (by omega)
              rw [blit_get_in hb2 (by omega) (by rw [zeros_length]; exact h2)]; rfl
          simp only [c1]
          have hr := hfg v eb2 0 _ c3
          generalize (if fresh = true then z else (lookupV k' Vs).getD z) = old' at hr ⊢
          have hput : ∀ a w, P a 0 w → Frm eb2 a 0 vsz → putIn b1 off (.entry k') a = some (b1.set off (.map (putKey k' a es1))) ∧
              off + x.W ≤ (b1.set off (.map (putKey k' a es1))).length ∧ (b1.set off (.map (putKey k' a es1)))[off]? = some (.map (putKey k' a es1)) ∧
              HoldsEntries vsz P (putKey k' a es1) (assignV k' w Vs) ∧ Frm b (b1.set off (.map (putKey k' a es1))) off x.W := by
            intro a w q1 q2
            have := a7.1
            exact ⟨by simp [putIn, putBlock, a2, ownedBlock, a3, setOwned], by simp; omega, set_get_self (by omega), a8 a w (by rw [q2.1, c2]) q1, a7.trans (frm_set hW)⟩
          cases hf : f v eb2 0 with
          | ok a =>
            cases hg : g v old' with
            | ok w =>
              rw [hf, hg] at hr
              obtain ⟨p1, p2, p3, p4, p5⟩ := hput a w hr.1 hr.2
              simp only [Res.bindB, p1]
              have ih := map_rel (src := src) hP hz hfg (k := k) (fresh := fresh) ms _ off _ _ p2 p3 p4
              generalize hB : mapB x src f k vsz fresh ms (b1.set off (.map (putKey k' a es1))) off = rb at ih
              generalize hV : mapV x src g k z fresh ms (assignV k' w Vs) = rv at ih
              cases rb <;> cases rv <;> first | exact ih.elim | skip
              · exact ⟨ih.1, p5.trans ih.2⟩
              · exact ⟨ih.1, ih.2.1, ih.2.2.1, p5.trans ih.2.2.2⟩
              all_goals trivial
            | err i e w => rw [hf, hg] at hr; exact hr.elim
            | crash => rw [hf, hg] at hr; exact hr.elim
            | unsup => rw [hf, hg] at hr; exact hr.elim
          | err i e a =>
            cases hg : g v old' with
            | err i' e' w =>
              rw [hf, hg] at hr
              obtain ⟨p1, p2, p3, p4, p5⟩ := hput a w hr.2.2.1 hr.2.2.2
              simp only [Res.bindB, p1]
              exact ⟨hr.1, hr.2.1, ⟨p2, _, p3, p4⟩, p5⟩
            | ok w => rw [hf, hg] at hr; exact hr.elim
            | crash => rw [hf, hg] at hr; exact hr.elim
            | unsup => rw [hf, hg] at hr; exact hr.elim
          | crash =>
            cases hg : g v old' <;> rw [hf, hg] at hr <;> first | exact hr.elim | trivial
          | unsup =>
            cases hg : g v old' <;> rw [hf, hg] at hr <;> first | exact hr.elim | trivial

theorem mapSS_rel {x : Ext} {src : Bytes} : ∀ (ms : List ((Nat × Nat) × JVal)) (es : List (Key × Block)) (Vs : List (Key × Val)),
    HoldsEntries (2 * x.W) (fun b off V => off + 2 * x.W ≤ b.length ∧ HoldsS .str b[off]? V) es Vs →
    (mapSSB x src ms es = none ∧ mapSSV x src ms Vs = none) ∨ (∃ i e, mapSSB x src ms es = some (.error (i, e)) ∧ mapSSV x src ms Vs = some (.error (i, e))) ∨
    ∃ es' Vs', mapSSB x src ms es = some (.ok es') ∧ mapSSV x src ms Vs = some (.ok Vs') ∧
      HoldsEntries (2 * x.W) (fun b off V => off + 2 * x.W ≤ b.length ∧ HoldsS .str b[off]? V) es' Vs'
  | [], es, Vs, h => .inr (.inr ⟨es, Vs, rfl, rfl, h⟩)
  | ((i, e), v) :: ms, es, Vs, h => by
    have hW := Sim.W_pos x
    have hassign : ∀ k eb W, eb.length = 2 * x.W → (0 + 2 * x.W ≤ eb.length ∧ HoldsS .str eb[0]? W) →
        HoldsEntries (2 * x.W) (fun b off V => off + 2 * x.W ≤ b.length ∧ HoldsS .str b[off]? V) (mapSSLoop.mapAssign k eb es) (assignV k W Vs) := by
      intro k eb W q1 q2
      unfold mapSSLoop.mapAssign
      cases hk : lookupKey k es with
      | none => exact entries_add q1 q2 h hk
      | some _ => exact entries_put q1 q2 h (by rw [hk]; simp)
    unfold mapSSB mapSSV
    cases v with
    | str vi ve =>
      simp only []
      cases (Model.slice src (i + 1) (e - 1)).bind x.unescStr with
      | none => exact .inl ⟨rfl, rfl⟩
      | some ks =>
        cases (Model.slice src (vi + 1) (ve - 1)).bind x.unescStr with
        | none => exact .inl ⟨rfl, rfl⟩
        | some vs =>
          refine mapSS_rel ms _ _ (hassign _ _ _ (seg_length _ _) ⟨by rw [seg_length]; omega, .inr ⟨vs, ?_, rfl⟩⟩)
          exact seg_head _ _ (by omega)
    | null ni ne =>
      simp only []
      cases (Model.slice src (i + 1) (e - 1)).bind x.unescStr with
      | none => exact .inl ⟨rfl, rfl⟩
      | some ks =>
        refine mapSS_rel ms _ _ (hassign _ _ _ (zeros_length _) ⟨by rw [zeros_length]; omega, .inl ⟨?_, rfl⟩⟩)
        exact zeros_get (by omega)
    | bool _ _ _ => exact .inr (.inl ⟨_, _, rfl, rfl⟩)
    | num _ _ _ => exact .inr (.inl ⟨_, _, rfl, rfl⟩)
    | arr _ _ _ => exact .inr (.inl ⟨_, _, rfl, rfl⟩)
    | obj _ _ _ => exact .inr (.inl ⟨_, _, rfl, rfl⟩)

/-! ## Structs -/

theorem decVF_get (x : Ext) (src : Bytes) (o : Option Options) : ∀ (fs : List (Bytes × Nat × Ty)) (j : Nat),
    (decVF x src o fs)[j]? = (fs[j]?).map fun f => (f.1, decV x src o f.2.2)
  | [], j => by simp [decVF]
  | (n, fo, t) :: fs, 0 => by simp [decVF]
  | (n, fo, t) :: fs, j + 1 => by simp [decVF, decVF_get x src o fs j]

theorem decVF_names (x : Ext) (src : Bytes) (o : Option Options) : ∀ (fs : List (Bytes × Nat × Ty)),
    (decVF x src o fs).map (·.1) = fs.map (·.1)
  | [] => rfl
  | (n, fo, t) :: fs => by simp [decVF, decVF_names x src o fs]

theorem okF_get {x : Ext} {size : Nat} : ∀ {fs : List (Bytes × Nat × Ty)} {j : Nat} {f : Bytes × Nat × Ty}, OKF x size fs → fs[j]? = some f →
    f.2.1 + f.2.2.size x ≤ size ∧ OK x f.2.2
  | [], j, f, _, h => by simp at h
  | (n, o, t) :: fs, 0, f, h, hj => by
    simp only [OKF] at h
    simp at hj; subst hj; exact ⟨h.1, h.2.1⟩
  | (n, o, t) :: fs, j + 1, f, h, hj => by
    simp only [OKF] at h
    exact okF_get h.2.2.2 (by simpa using hj)

theorem holdsF_get {x : Ext} {b : Block} {off : Nat} : ∀ {fs : List (Bytes × Nat × Ty)} {Ws : List Val} {j : Nat} {f : Bytes × Nat × Ty}, HoldsF x fs b off Ws →
    fs[j]? = some f → ∃ W, Ws[j]? = some W ∧ Holds x f.2.2 b (off + f.2.1) W
  | [], _, j, f, _, h => by simp at h
  | (n, o, t) :: fs, Ws, j, f, h, hj => by
    simp only [HoldsF] at h
    obtain ⟨W, Ws', h1, h2, h3⟩ := h
    subst h1
    cases j with
    | zero => simp at hj; subst hj; exact ⟨W, rfl, h2⟩
    | succ j => simpa using holdsF_get h3 (by simpa using hj)

/-- The fields that do not overlap a changed range keep their values. -/
theorem holdsF_frm {x : Ext} {size : Nat} {b b' : Block} {off o n : Nat} (hf : Frm b b' (off + o) n) : ∀ {fs : List (Bytes × Nat × Ty)} {Ws : List Val}, OKF x size fs →
    (∀ g ∈ fs, o + n ≤ g.2.1 ∨ g.2.1 + g.2.2.size x ≤ o) → HoldsF x fs b off Ws → HoldsF x fs b' off Ws
  | [], _, _, _, h => by simpa only [HoldsF] using h
  | (m, o', t) :: fs, Ws, ho, hd, h => by
    simp only [HoldsF, OKF] at *
    obtain ⟨W, Ws', h1, h2, h3⟩ := h
    refine ⟨W, Ws', h1, holds_agree t ho.2.1 h2 (hf.agree ?_) ?_, holdsF_frm hf ho.2.2.2 (fun g hg => hd g (by simp [hg])) h3⟩
    · have := hd (m, o', t) (by simp)
      simp only [] at this
      omega
    · have := holds_len h2
      have := hf.1
      omega

theorem holdsF_set {x : Ext} {size : Nat} {b b' : Block} {off : Nat} : ∀ {fs : List (Bytes × Nat × Ty)} {Ws : List Val} {j : Nat} {f : Bytes × Nat × Ty} {W : Val},
    OKF x size fs → fs[j]? = some f → HoldsF x fs b off Ws → Frm b b' (off + f.2.1) (f.2.2.size x) → Holds x f.2.2 b' (off + f.2.1) W → HoldsF x fs b' off (Ws.set j W)
  | [], _, j, f, W, _, h, _, _, _ => by simp at h
  | (n, o, t) :: fs, Ws, j, f, W, ho, hj, h, hf, hw => by
    simp only [HoldsF, OKF] at h ho ⊢
    obtain ⟨W0, Ws', h1, h2, h3⟩ := h
    subst h1
    cases j with
    | zero =>
      simp at hj; subst hj
      exact ⟨W, Ws', rfl, hw, holdsF_frm hf ho.2.2.2 (fun g hg => ho.2.2.1 g hg) h3⟩
    | succ j =>
      have hj' : fs[j]? = some f := by simpa using hj
      refine ⟨W0, Ws'.set j W, rfl, ?_, holdsF_set ho.2.2.2 hj' h3 hf hw⟩
      have hd := ho.2.2.1 f (List.mem_of_getElem? hj')
      refine holds_agree t ho.2.1 h2 (hf.agree (by omega)) ?_
      have := holds_len h2
      have := hf.1
      omega

/-- Structs with any decoders of their fields. -/
theorem struct_relG {x : Ext} {src : Bytes} {o' : Options} {size : Nat} {fields : List (Bytes × Nat × Ty)} (hok : OKF x size fields)
    {F : List (Bytes × Nat × (JVal → Block → Nat → Res))} {G : List (Bytes × (JVal → Val → R Val))} (hF : F.map (·.1) = fields.map (·.1)) (hG : G.map (·.1) = fields.map (·.1))
    (hfg : ∀ (j : Nat) (f : Bytes × Nat × Ty), fields[j]? = some f → ∃ df dg, F[j]? = some (f.1, f.2.1, df) ∧ G[j]? = some (f.1, dg) ∧ Corr (f.2.2.size x) (Holds x f.2.2) df dg) :
    ∀ (ms : List ((Nat × Nat) × JVal)) (b : Block) (off : Nat) (Ws : List Val), off + size ≤ b.length → HoldsF x fields b off Ws →
      Rel (fun b' Ws' => off + size ≤ b'.length ∧ HoldsF x fields b' off Ws') b off size (structB x src o' F ms b off)
        (structV x src o' G ms Ws)
  | [], b, off, Ws, hl, h => ⟨⟨hl, h⟩, Frm.refl _ _ _⟩
  | ((i, e), v) :: ms, b, off, Ws, hl, h => by
    unfold structB structV
    cases hn : (Model.slice src (i + 1) (e - 1)).bind (keyName o') with
    | none => trivial
    | some name =>
      simp only [hF, hG]
      cases hj : findField x o' ((fields.map (·.1)).zipIdx) name with
      | none =>
        simp only []
        by_cases h1 : o'.disallowUnknownFields = true
        · rw [if_pos h1, if_pos h1]
          exact ⟨rfl, rfl, ⟨hl, h⟩, Frm.refl _ _ _⟩
        · rw [if_neg h1, if_neg h1]
          by_cases h2 : hasObj v = true
          · rw [if_pos h2, if_pos h2]; trivial
          · rw [if_neg h2, if_neg h2]
            exact struct_relG hok hF hG hfg ms b off Ws hl h
      | some j =>
        have hlt := Sim.findField_lt hj
        rw [List.length_map] at hlt
        obtain ⟨f, hf⟩ : ∃ f, fields[j]? = some f := ⟨_, List.getElem?_eq_getElem hlt⟩
        obtain ⟨W, hW, hh⟩ := holdsF_get h hf
        obtain ⟨df, dg, e1, e2, hc⟩ := hfg j f hf
        simp only [e1, e2, hW]
        have hr := hc v b (off + f.2.1) W hh
        obtain ⟨q1, q2⟩ := okF_get hok hf
        cases hB : df v b (off + f.2.1) with
        | ok b1 =>
          cases hV : dg v W with
          | ok W1 =>
            rw [hB, hV] at hr
            have ih := struct_relG (src := src) (o' := o') hok hF hG hfg ms b1 off (Ws.set j W1) (by have := hr.2.1; omega) (holdsF_set hok hf h hr.2 hr.1)
            have hfr : Frm b b1 off size := hr.2.mono (by omega) (by omega)
            simp only []
            generalize structB x src o' F ms b1 off = rb at ih
            generalize structV x src o' G ms (Ws.set j W1) = rv at ih
            cases rb <;> cases rv <;> first | exact ih.elim | skip
            · exact ⟨ih.1, hfr.trans ih.2⟩
            · exact ⟨ih.1, ih.2.1, ih.2.2.1, hfr.trans ih.2.2.2⟩
            all_goals trivial
          | err i e W1 => rw [hB, hV] at hr; exact hr.elim
          | crash => rw [hB, hV] at hr; exact hr.elim
          | unsup => rw [hB, hV] at hr; exact hr.elim
        | err i1 e1 b1 =>
          cases hV : dg v W with
          | err i2 e2 W1 =>
            rw [hB, hV] at hr
            obtain ⟨r1, r2, r3, r4⟩ := hr
            exact ⟨r1, r2, ⟨by have := r4.1; omega, holdsF_set hok hf h r4 r3⟩, r4.mono (by omega) (by omega)⟩
          | ok W1 => rw [hB, hV] at hr; exact hr.elim
          | crash => rw [hB, hV] at hr; exact hr.elim
          | unsup => rw [hB, hV] at hr; exact hr.elim
        | crash =>
          cases hV : dg v W <;> rw [hB, hV] at hr <;> first | exact hr.elim | trivial
        | unsup =>
          cases hV : dg v W <;> rw [hB, hV] at hr <;> first | exact hr.elim | trivial

theorem struct_rel {x : Ext} {src : Bytes} {o : Option Options} {o' : Options} {size : Nat} {fields : List (Bytes × Nat × Ty)} (hok : OKF x size fields)
    (hfg : ∀ (j : Nat) (f : Bytes × Nat × Ty), fields[j]? = some f → Corr (f.2.2.size x) (Holds x f.2.2) (dec x src o f.2.2) (decV x src o f.2.2)) :
    ∀ (ms : List ((Nat × Nat) × JVal)) (b : Block) (off : Nat) (Ws : List Val), off + size ≤ b.length → HoldsF x fields b off Ws →
      Rel (fun b' Ws' => off + size ≤ b'.length ∧ HoldsF x fields b' off Ws') b off size (structB x src o' (decFields x src o fields) ms b off)
        (structV x src o' (decVF x src o fields) ms Ws) :=
  struct_relG hok (Sim.decFields_names ..) (decVF_names ..) fun j f hf =>
    ⟨_, _, by rw [Sim.decFields_get, hf]; rfl, by rw [decVF_get, hf]; rfl, hfg j f hf⟩

end Verif.Proof.Val

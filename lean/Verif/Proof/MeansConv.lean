import Verif.Proof.Means
/-!
# What is accepted has a meaning
-/
namespace Verif.Proof.Means
open Verif.Model Verif.Big Verif.Spec Verif.Proof Verif.Proof.Outcome Verif.Proof.Comp Verif.Props

theorem parseInt_inv {x : Ext} {k : IKind} {s : Bytes} {v w : Int} (h1 : IsIntLit s v) (hn : k.signed = false ∨ k.bits x.is64 = 64) (hs : k.signed = false → s.head? ≠ some 45)
    (hp : parseInt x.is64 k s = some (w, false)) : QuotedOK x.is64 k s w := by
  by_cases hq : QuotedOK x.is64 k s v
  · rw [parseInt_good hq] at hp; cases hp; exact hq
  · have hp' : ∃ y, parseInt x.is64 k s = some (y, true) := by
      have hr : ¬ InRange x.is64 k v := fun hr => hq ⟨h1, hr, hs⟩
      unfold InRange at hr
      cases hk : k.signed with
      | true =>
        rw [hk, if_pos rfl] at hr
        have hb : k.bits x.is64 = 64 := by rcases hn with hn | hn; (rw [hk] at hn; cases hn); exact hn
        rw [hb] at hr
        refine (C02_signed64_parse x.is64 k ?_ s v h1).2 (by simp at hr ⊢; omega)
        revert hk hb
        cases k <;> simp [IKind.signed, IKind.bits]
      | false =>
        rw [hk, if_neg (by decide)] at hr
        cases h1 with
        | pos hnat =>
          refine (C01_unsigned_parse x.is64 k hk s hnat).2 ?_
          have hh : ¬ ((digitsVal s : Int) < 2 ^ k.bits x.is64) := fun hc => hr ⟨Int.natCast_nonneg _, hc⟩
          have : ¬ (digitsVal s < 2 ^ k.bits x.is64) := fun hc => hh (by exact_mod_cast hc)
          omega
        | neg h => exact absurd rfl (hs hk)
    obtain ⟨y, hp'⟩ := hp'
    rw [hp'] at hp; cases hp

theorem scalar_inv {x : Ext} (hx : FloatContract x) {src : Bytes} {o : Option Options} {k : SKind} (he : exactS x k) {v : JVal} {V : Val} (hw : Wf src v) (hz : noNegZero src v)
    (h : decV x src o (.scalar k) v (zeroS k) = .ok V) : MeansS x src k v V := by
  cases v with
  | null i e =>
    refine .inl ⟨⟨i, e, rfl⟩, ?_⟩
    change R.ok (zeroS k) = _ at h
    cases h; rfl
  | bool b i e => cases k <;> first | (cases h; done) | (cases h; exact .inr ⟨b, i, e, rfl, rfl⟩)
  | arr i es z => cases h
  | obj i ms z => cases h
  | str i e =>
    obtain ⟨out, hout⟩ := hw.2.2
    simp only [decV, leafV, leaf, Doc.slice_inner hw, Ty.etype, onString] at h
    cases k with
    | str =>
      obtain ⟨u, hu⟩ := Safe.unescStr_some x hout
      simp only [hu, actV, cellV, R.ok.injEq] at h
      subst h
      exact .inr ⟨i, e, u, rfl, by rw [AnyTree.unesc_bytes hout hu]; exact hout, rfl⟩
    | _ => simp [actV] at h
  | num b i e =>
    cases b with
    | false =>
      simp only [decV, leafV, leaf, Doc.slice_text hw.1 hw.2.1, Ty.etype, onNumber] at h
      cases k with
      | flt k =>
        simp only [parseFlt_eq] at h
        cases hf : floatOf x k (text src i e) with
        | ok f => simp only [hf, storeFlt, actV, cellV, R.ok.injEq] at h; subst h; exact .inr ⟨_, i, e, f, rfl, hf, rfl⟩
        | error c => simp [hf, storeFlt, actV] at h
      | _ => simp [actV] at h
    | true =>
      obtain ⟨n, hn⟩ := integer_intLit (hw.2.2.2.1 rfl)
      simp only [decV, leafV, leaf, Doc.slice_text hw.1 hw.2.1, Ty.etype, onInteger] at h
      cases k with
      | flt k =>
        simp only [intFlt_eq hx k hn hz, ← floatOf_eq] at h
        cases hf : floatOf x k (text src i e) with
        | ok f => simp only [hf, storeFlt, actV, cellV, R.ok.injEq] at h; subst h; exact .inr ⟨_, i, e, f, rfl, hf, rfl⟩
        | error c => simp [hf, storeFlt, actV] at h
      | int k =>
        have hsn : k.signed = false → (text src i e).head? ≠ some 45 := by
          intro hk hc
          cases ht : text src i e with
          | nil => rw [ht] at hc; cases hc
          | cons c cs =>
            rw [ht] at hc h
            simp only [List.head?_cons, Option.some.injEq] at hc
            subst hc
            simp [hk, actV] at h
        have hst : actV i (zeroV x (.scalar (.int k))) none (zeroS (.int k)) (storeInt x k (text src i e) .integerOverflow) = .ok V := by
          rw [← h]
          congr 1
          cases hk : k.signed with
          | true => simp [hk]
          | false =>
            have := hsn hk
            cases ht : text src i e with
            | nil => exact absurd ht (intLit_nonempty hn)
            | cons c cs =>
              rw [ht] at this
              have : c ≠ 45 := fun hc => this (by simp [hc])
              simp [this]
        unfold storeInt at hst
        cases hp : parseInt x.is64 k (text src i e) with
        | none => simp [hp, actV] at hst
        | some r =>
          obtain ⟨w, b⟩ := r
          cases b with
          | true => simp [hp, actV] at hst
          | false =>
            simp only [hp, actV, cellV, R.ok.injEq] at hst
            subst hst
            exact .inr ⟨true, i, e, w, rfl, parseInt_inv hn he hsn hp, rfl⟩
      | _ => simp [actV] at h

theorem quoted_inv {x : Ext} {src : Bytes} {o : Option Options} {k : SKind} (he : k = .bool ∨ k = .str) {v : JVal} {V : Val} (hw : Wf src v)
    (h : decV x src o (.quoted k) v (zeroS k) = .ok V) : MeansQ x src k v V := by
  cases v with
  | null i e =>
    refine .inl ⟨⟨i, e, rfl⟩, ?_⟩
    change R.ok (zeroS k) = _ at h
    cases h; rfl
  | bool b i e => cases k <;> cases h
  | arr i es z => cases h
  | obj i ms z => cases h
  | num b i e =>
    cases b <;> simp [decV, leafV, leaf, Doc.slice_text hw.1 hw.2.1, Ty.etype, onNumber, onInteger, actV] at h
  | str i e =>
    refine .inr ⟨i, e, rfl, ?_⟩
    simp only [decV, leafV, leaf, Doc.slice_inner hw, Ty.etype] at h
    rcases he with rfl | rfl
    · simp only [onString] at h
      split at h
      · rename_i ht; cases h; exact ⟨true, by simpa using ht, rfl⟩
      · split at h
        · rename_i ht; cases h; exact ⟨false, by simpa using ht, rfl⟩
        · simp [actV] at h
    · generalize inner src i e = s at h
      simp only [onString] at h
      split at h
      · simp [actV] at h
      · rename_i hc
        split at h
        · simp [actV] at h
        · rename_i hb
          simp only [actV, cellV, R.ok.injEq] at h
          subst h
          simp only [not_or, Nat.not_lt, Decidable.not_not] at hc
          obtain ⟨h1, h2, h3⟩ := hc
          refine ⟨x.mkStr ((s.drop 2).take (s.length - 4)), ?_, (noBackslash _).1 (by simpa [Ext.mkStr] using hb), rfl⟩
          have e1 : s = s.take 2 ++ s.drop 2 := (List.take_append_drop 2 s).symm
          have e2 : s.drop 2 = (s.drop 2).take (s.length - 4) ++ (s.drop 2).drop (s.length - 4) := (List.take_append_drop _ _).symm
          rw [List.drop_drop] at e2
          have : 2 + (s.length - 4) = s.length - 2 := by omega
          rw [this, h3] at e2
          simp only [Ext.mkStr]
          rw [h2] at e1
          rw [List.append_assoc, ← e2]; exact e1

theorem elemsV_inv {f : JVal → Val → R Val} {P : JVal → Val → Prop} {z : Val} {n : Nat} {vs : List JVal} {Ws : List Val} (hf : ∀ w ∈ vs.take n, ∀ W, f w z = .ok W → P w W)
    (h : elemsV f vs (List.replicate n z) = .ok Ws) :
    Ws.length = n ∧ ∀ (j : Nat) W, Ws[j]? = some W → (∃ w, vs[j]? = some w ∧ P w W) ∨ (vs.length ≤ j ∧ W = z) := by
  obtain ⟨h1, h2, h3⟩ := (elemsV_ok f vs _ Ws).1 h
  simp only [List.length_replicate] at h1
  refine ⟨h1, fun j W hW => ?_⟩
  have hj := (List.getElem?_eq_some_iff.1 hW).1
  have hr : (List.replicate n z)[j]? = some z := by rw [List.getElem?_replicate, if_pos (by omega)]
  by_cases hl : j < vs.length
  · have hv : vs[j]? = some vs[j] := by simp
    refine .inl ⟨vs[j], hv, hf _ ?_ W (h2 j _ _ _ hv hr hW)⟩
    refine List.mem_of_getElem? (i := j) ?_
    rw [List.getElem?_take, if_pos (by omega), hv]
  · refine .inr ⟨by omega, ?_⟩
    rw [h3 j (by omega), hr] at hW
    cases hW; rfl

theorem elems_inv {f : JVal → Val → R Val} {P : JVal → Val → Prop} {z : Val} {vs : List JVal} {Ws : List Val} (hf : ∀ w ∈ vs, ∀ W, f w z = .ok W → P w W)
    (h : elemsV f vs (List.replicate vs.length z) = .ok Ws) : MeansElems P vs (.slice Ws []) := by
  obtain ⟨h1, h2⟩ := elemsV_inv (P := P) (by simpa using hf) h
  refine ⟨Ws, rfl, h1, fun j w W hw hW => ?_⟩
  rcases h2 j W hW with ⟨w', a, b⟩ | ⟨a, -⟩
  · rw [hw] at a; cases a; exact b
  · have := (List.getElem?_eq_some_iff.1 hw).1; omega

theorem slice_inv {f : JVal → Val → R Val} {P : JVal → Val → Prop} {z : Val} {vs : List JVal} {c : Bool} {V : Val} (hf : ∀ w ∈ vs, ∀ W, f w z = .ok W → P w W)
    (h : sliceV f z c vs .nil = .ok V) : MeansElems P vs V := by
  unfold sliceV at h
  split at h
  · rename_i hv; subst hv
    cases h; exact ⟨[], rfl, rfl, by simp⟩
  · rename_i hv
    have hl := List.length_pos_iff.2 hv
    have : prepSlice z c vs.length .nil = (List.replicate vs.length z, []) := by
      simp only [prepSlice, sliceParts, List.append_nil, List.length_nil, hl, if_true]
      cases c <;> simp
    simp only [this] at h
    obtain ⟨Ws, h1, rfl⟩ := map_ok_iff.1 h
    exact elems_inv hf h1

theorem sliceOf_inv {f : JVal → Val → R Val} {P : JVal → Val → Prop} {z : Val} {vs : List JVal} {V : Val} (hf : ∀ w ∈ vs, ∀ W, f w z = .ok W → P w W)
    (h : sliceOfV f z vs .nil = .ok V) : MeansElems P vs V := by
  unfold sliceOfV at h
  split at h
  · rename_i hv; subst hv
    cases h; exact ⟨[], rfl, rfl, by simp⟩
  · rename_i hv
    have hl := List.length_pos_iff.2 hv
    simp only [sliceParts, List.append_nil, List.length_nil, hl, if_true] at h
    cases he : elemsV f vs (List.replicate vs.length z) with
    | ok Ws => rw [he] at h; cases h; exact elems_inv hf he
    | err i e Ws => rw [he] at h; cases h
    | crash => rw [he] at h; cases h
    | unsup => rw [he] at h; cases h

theorem key_inv {x : Ext} {k : KeyTy} (he : ∀ ik, k ≠ .int ik) {raw out : Bytes} (hd : Denotes raw out) {K : Key} (h : k.key x raw = some (.ok K)) : KeyOf x k raw K := by
  cases k with
  | str =>
    obtain ⟨u, hu⟩ := Safe.unescStr_some x hd
    simp only [KeyTy.key, hu, Option.map_some, Option.some.injEq, Except.ok.injEq] at h
    subst h
    exact .str (by rw [AnyTree.unesc_bytes hd hu]; exact hd)
  | int k => exact absurd rfl (he k)
  | text rt impl =>
    simp only [KeyTy.key, C09_unescape _ _ hd] at h
    cases impl with
    | false => simp at h
    | true =>
      simp only at h
      cases hk : x.unmarshalKey rt out with
      | error e => simp [hk] at h
      | ok k => simp only [hk, Option.some.injEq, Except.ok.injEq] at h; subst h; exact .text hd hk
  | other => simp [KeyTy.key] at h

theorem map_inv {x : Ext} {src : Bytes} {f : JVal → Val → R Val} {P : JVal → Val → Prop} {k : KeyTy} (he : ∀ ik, k ≠ .int ik) {z : Val} {fresh : Bool} : ∀ {ms : List ((Nat × Nat) × JVal)}
    {acc m' : List (Key × Val)}, WfM src ms → (∀ m ∈ ms, ∀ W, f m.2 z = .ok W → P m.2 W) →
    (∀ (a b : Nat) m m' K, ms[a]? = some m → ms[b]? = some m' → KeyOf x k (inner src m.1.1 m.1.2) K → KeyOf x k (inner src m'.1.1 m'.1.2) K → a = b) →
    (∀ a ∈ acc, ∀ m ∈ ms, ∀ K, KeyOf x k (inner src m.1.1 m.1.2) K → a.1.same K = false) → mapV x src f k z fresh ms acc = .ok m' →
    ∃ es, m' = acc ++ es ∧ es.length = ms.length ∧ ∀ (j : Nat) m e, ms[j]? = some m → es[j]? = some e → KeyOf x k (inner src m.1.1 m.1.2) e.1 ∧ P m.2 e.2
  | [], acc, m', _, _, _, _, h => by
    simp only [mapV, R.ok.injEq] at h
    exact ⟨[], by simp [h], rfl, by simp⟩
  | ((a, b), v) :: ms, acc, m', hw, hf, hd, ha, h => by
    obtain ⟨out, hout⟩ := hw.1.2.2
    simp only [mapV, Doc.slice_inner hw.1, Option.bind_some] at h
    cases hk : k.key x (inner src a b) with
    | none => simp [hk] at h
    | some r =>
      cases r with
      | error e => simp [hk] at h
      | ok K =>
        have hKo := key_inv he hout hk
        have hnew : ∀ c ∈ acc, c.1.same K = false := fun c hc => ha c hc _ List.mem_cons_self K hKo
        simp only [hk, lookup_new hnew, Option.getD_none, ite_self] at h
        cases hv : f v z with
        | ok W =>
          simp only [hv, assign_new hnew] at h
          obtain ⟨es, g1, g2, g3⟩ := map_inv he (P := P) (acc := acc ++ [(K, W)]) hw.2.2 (fun m hm => hf m (List.mem_cons_of_mem _ hm))
            (fun i j m m' K h h' g g' => by have := hd (i + 1) (j + 1) m m' K (by simpa using h) (by simpa using h') g g'; omega) (by
              intro c hc m hm K' hK'
              simp only [List.mem_append, List.mem_singleton] at hc
              rcases hc with hc | rfl
              · exact ha c hc m (List.mem_cons_of_mem _ hm) K' hK'
              · cases hs : K.same K' with
                | false => rfl
                | true =>
                  obtain ⟨j, hj⟩ := List.getElem?_of_mem hm
                  have := hd 0 (j + 1) _ m K rfl (by simpa using hj) hKo (keyOf_same hK' hs)
                  omega) h
          refine ⟨(K, W) :: es, by simp [g1], by simp [g2], ?_⟩
          intro j m e hj hje
          cases j with
          | zero => simp at hj hje; subst hj hje; exact ⟨hKo, hf _ List.mem_cons_self W hv⟩
          | succ j => exact g3 j m e (by simpa using hj) (by simpa using hje)
        | err i e W => simp [hv] at h
        | crash => simp [hv] at h
        | unsup => simp [hv] at h

theorem entries_inv {x : Ext} {src : Bytes} {f : JVal → Val → R Val} {P : JVal → Val → Prop} {k : KeyTy} (he : ∀ ik, k ≠ .int ik) {z : Val} {fresh : Bool} {ms : List ((Nat × Nat) × JVal)}
    {es : List (Key × Val)} (hw : WfM src ms) (hf : ∀ m ∈ ms, ∀ W, f m.2 z = .ok W → P m.2 W)
    (hd : ∀ (a b : Nat) m m' K, ms[a]? = some m → ms[b]? = some m' → KeyOf x k (inner src m.1.1 m.1.2) K → KeyOf x k (inner src m'.1.1 m'.1.2) K → a = b)
    (h : mapV x src f k z fresh ms [] = .ok es) : MeansEntries src (KeyOf x k) P ms (.map es) := by
  obtain ⟨es', g1, g2, g3⟩ := map_inv he (P := P) hw hf hd (by simp) h
  simp only [List.nil_append] at g1
  subst g1
  refine ⟨es, rfl, g2, g3, fun i j a b hi hj hs => ?_⟩
  have h1 := (List.getElem?_eq_some_iff.1 hi).1
  have h2 := (List.getElem?_eq_some_iff.1 hj).1
  have e1 : ms[i]? = some (ms[i]'(by omega)) := by simp
  have e2 : ms[j]? = some (ms[j]'(by omega)) := by simp
  exact hd i j _ _ a.1 e1 e2 (g3 i _ _ e1 hi).1 (keyOf_same (g3 j _ _ e2 hj).1 hs)

theorem onceF_get {x : Ext} {src : Bytes} {o : Options} : ∀ (fs : List (Bytes × Nat × Ty)) (j : Nat), (OnceF x src o fs)[j]? = (fs[j]?).map fun f => Once x src o f.2.2
  | [], _ => by simp [OnceF]
  | (_, _, t) :: fs, 0 => by simp [OnceF]
  | (_, _, t) :: fs, j + 1 => by simp [OnceF, onceF_get fs j]

theorem exactF_mem {x : Ext} : ∀ {fs : List (Bytes × Nat × Ty)}, ExactF x fs → ∀ f ∈ fs, Exact x f.2.2
  | (_, _, t) :: fs, h, f, hf => by
    rcases List.mem_cons.1 hf with rfl | hf
    · exact h.1
    · exact exactF_mem h.2 f hf

theorem struct_known {x : Ext} {src : Bytes} {o : Options} {fs : List (Bytes × (JVal → Val → R Val))} (ho : o.disallowUnknownFields = true) : ∀ {ms : List ((Nat × Nat) × JVal)} {Ws Ws' : List Val}, WfM src ms →
    structV x src o fs ms Ws = .ok Ws' → ∀ m ∈ ms, ¬ KeyUnknown x src o (fs.map (·.1)) m.1
  | ((a, b), v) :: ms, Ws, Ws', hw, h, m, hm => by
    obtain ⟨name, h1, h2, h3⟩ := key_fun x o (fs.map (·.1)) (k := (a, b)) hw.1
    simp only [structV, h1] at h
    cases hf : findField x o ((fs.map (·.1)).zipIdx) name with
    | none => simp [hf, ho] at h
    | some j =>
      simp only [hf] at h
      cases hg : fs[j]? with
      | none => simp [hg] at h
      | some f =>
        cases hW : Ws[j]? with
        | none => simp [hg, hW] at h
        | some W =>
          simp only [hg, hW] at h
          cases hr : f.2 v W with
          | ok W1 =>
            simp only [hr] at h
            rcases List.mem_cons.1 hm with rfl | hm
            · intro hc
              rw [h3.1 hc] at hf; cases hf
            · exact struct_known ho hw.2.2 h m hm
          | err i e W1 => simp [hr] at h
          | crash => simp [hr] at h
          | unsup => simp [hr] at h

/-- The struct case of `sound`, for any decoders `D` of the fields. -/
theorem struct_sound {x : Ext} {src : Bytes} {o : Options} {n : Nat} {fs : List (Bytes × Nat × Ty)} {D : List (Bytes × (JVal → Val → R Val))} {i k : Nat} {ms : List ((Nat × Nat) × JVal)} {Ws' : List Val}
    (hw : Wf src (.obj i ms k)) (hD : D.map (·.1) = fs.map (·.1))
    (hf' : ∀ m ∈ ms, ∀ j, KeySelects x src o (fs.map (·.1)) m.1 j → ∀ f, fs[j]? = some f → ∃ D', D[j]? = some (f.1, D') ∧ ∀ W, D' m.2 (zeroV x f.2.2) = .ok W → Means x src o f.2.2 m.2 W)
    (hd : ∀ (a b : Nat) m m' j, ms[a]? = some m → ms[b]? = some m' → KeySelects x src o (fs.map (·.1)) m.1 j → KeySelects x src o (fs.map (·.1)) m'.1 j → a = b)
    (g : structV x src o D ms (zeroF x fs) = .ok Ws') : Means x src o (.struct n fs) (.obj i ms k) (.struct Ws') := by
  have hwm := hw.2.2.2.2
  have hlen := structV_length (.inl g)
  refine .inr ⟨i, ms, k, Ws', rfl, rfl, by rw [hlen, zeroF_length], fun hc => ?_, hd, ?_⟩
  · have := struct_known hc hwm g
    rwa [hD] at this
  · intro j f P W hf hP hW
    rw [meansF_get, hf] at hP
    cases hP
    by_cases hsel : ∃ m ∈ ms, KeySelects x src o (fs.map (·.1)) m.1 j
    · obtain ⟨m, hm, hs⟩ := hsel
      refine .inl ⟨m, hm, hs, ?_⟩
      obtain ⟨D', hDj, hDm⟩ := hf' m hm j hs f hf
      obtain ⟨p, hp⟩ := List.getElem?_of_mem hm
      have hpl := (List.getElem?_eq_some_iff.1 hp).1
      have hsplit : ms = ms.take p ++ (m.1, m.2) :: ms.drop (p + 1) := by
        have : (m.1, m.2) = ms[p] := by
          have := (List.getElem?_eq_some_iff.1 hp).2; rw [this]
        rw [this, List.getElem_cons_drop, List.take_append_drop]
      rw [hsplit] at g
      have hwm2 := hwm
      rw [hsplit] at hwm2
      obtain ⟨U, U', e1, e2, e3⟩ := structV_last (x := x) (src := src) (o := o) (fs := D) (j := j) (f := (f.1, D')) hDj
        (by rw [hD]; exact hs) (by
          rw [hD]
          intro m' hm' hs'
          obtain ⟨q, hq⟩ := List.getElem?_of_mem hm'
          rw [List.getElem?_drop] at hq
          have := hd p _ m m' j hp hq hs hs'
          omega) hwm2 g
      rw [hD] at e3
      have e3 := e3 (by
        intro m' hm' hs'
        obtain ⟨q, hq⟩ := List.getElem?_of_mem hm'
        rw [List.getElem?_take] at hq
        split at hq
        · have := hd p q m m' j hp hq hs hs'
          omega
        · cases hq)
      rw [zeroF_get, hf] at e3
      cases e3
      rw [hW] at e1; cases e1
      exact hDm W e2
    · have hno : ∀ m ∈ ms, ¬ KeySelects x src o (fs.map (·.1)) m.1 j := fun m hm hs => hsel ⟨m, hm, hs⟩
      refine .inr ⟨hno, ?_⟩
      have := structV_keep (j := j) hwm (.inl g) (by rw [hD]; exact hno)
      rw [hW, zeroF_get, hf] at this
      cases this; rfl

theorem mapSS_inv {x : Ext} {src : Bytes} {o : Option Options} : ∀ {ms : List ((Nat × Nat) × JVal)} {m es : List (Key × Val)}, WfM src ms → mapSSV x src ms m = some (.ok es) →
    mapV x src (decV x src o (.scalar .str)) .str (zeroS .str) true ms m = .ok es
  | [], m, es, _, h => by simp only [mapSSV, Option.some.injEq, Except.ok.injEq] at h; subst h; rfl
  | ((a, b), v) :: ms, m, es, hw, h => by
    obtain ⟨out, hout⟩ := hw.1.2.2
    obtain ⟨s, hs⟩ := Safe.unescStr_some x hout
    have h1 : (Model.slice src (a + 1) (b - 1)).bind x.unescStr = some s := by rw [Doc.slice_inner hw.1]; exact hs
    have h2 : (Model.slice src (a + 1) (b - 1)).bind (fun key => KeyTy.key x key .str) = some (.ok (.str s)) := by
      rw [Doc.slice_inner hw.1]; simp [KeyTy.key, hs]
    simp only [mapV, h2, if_true]
    cases v with
    | str i e =>
      obtain ⟨out, hout⟩ := hw.2.1.2.2
      obtain ⟨u, hu⟩ := Safe.unescStr_some x hout
      have h3 : (Model.slice src (i + 1) (e - 1)).bind x.unescStr = some u := by rw [Doc.slice_inner hw.2.1]; exact hu
      have h4 : decV x src o (.scalar .str) (.str i e) (zeroS .str) = .ok (.str u) := by simp only [decV, leafV, leaf, Doc.slice_inner hw.2.1, Ty.etype, onString, hu]; rfl
      simp only [h4]
      simp only [mapSSV, h1, h3] at h
      exact mapSS_inv hw.2.2 h
    | null i e =>
      have h4 : decV x src o (.scalar .str) (.null i e) (zeroS .str) = .ok (.str ⟨[], false⟩) := rfl
      simp only [h4]
      simp only [mapSSV, h1] at h
      exact mapSS_inv hw.2.2 h
    | bool c i e => simp [mapSSV] at h
    | num c i e => simp [mapSSV] at h
    | arr i es' k => simp [mapSSV] at h
    | obj i ms' k => simp [mapSSV] at h

/-- What is accepted has a meaning. -/
def Sound (x : Ext) (src : Bytes) (o : Options) (ty : Ty) : Prop :=
  ∀ v V, Wf src v → noNegZero src v → Exact x ty → Once x src o ty v → decV x src (some o) ty v (zeroV x ty) = .ok V → Means x src o ty v V

/-- A value of the wrong kind is not accepted by a composite type. -/
theorem leaf_wrong {x : Ext} {src : Bytes} {ty : Ty} {v : JVal} {V W : Val} (hw : Wf src v) (hty : match ty with
    | .array0 | .array _ _ | .slice _ | .sliceOf _ | .sliceES | .mapSS | .map _ _ | .struct _ _ | .emptyStruct => True
    | _ => False) (h : leafV x src ty v W = .ok V) : IsNull v := by
  cases v with
  | null i e => exact ⟨i, e, rfl⟩
  | bool b i e => cases ty <;> first | exact hty.elim | (exfalso; cases h)
  | num b i e =>
    exfalso
    cases ty <;> first | exact hty.elim | (cases b <;> simp [leafV, leaf, Doc.slice_text hw.1 hw.2.1, onInteger, onNumber, Ty.etype, actV] at h)
  | str i e =>
    exfalso
    cases ty <;> first | exact hty.elim | simp [leafV, leaf, Doc.slice_inner hw, onString, Ty.etype, actV] at h
  | arr i es z => exfalso; cases h
  | obj i ms z => exfalso; cases h

mutual
theorem sound {x : Ext} (hx : FloatContract x) (ht : x.tokFloat64 = x.parseFloat64) {src : Bytes} {o : Options} : ∀ ty, Sound x src o ty
  | .any => fun v V hw hz _ _ h => by
    have hp : anyParser x v = x.parseFloat64 := by cases v <;> simp [anyParser, ht]
    obtain ⟨h1, h2⟩ := C17_inside (x := x) hw (some o) (zeroV x .any)
    rw [hp] at h1 h2
    by_cases hn : NumbersParse x.parseFloat64 src v
    · obtain ⟨a, g1, g2⟩ := h1 hn
      rw [g1] at h; cases h
      exact ⟨hn, a, rfl, g2⟩
    · obtain ⟨e, g1, -⟩ := h2 hn
      rw [g1] at h; cases h
  | .number => fun v V _ _ he _ _ => he.elim
  | .scalar k => fun v V hw hz he _ h => scalar_inv hx he hw hz h
  | .quoted k => fun v V hw hz he _ h => quoted_inv he hw h
  | .jsonU rt n impl => fun v V hw _ _ _ h => by
    simp only [decV, jsonV, zeroV, Safe.slice_extent hw, Safe.innerOK_wf hw] at h
    cases impl with
    | false => simp at h
    | true =>
      simp only at h
      generalize hu : x.unmarshalJSON rt (zeros n) (text src v.index v.stop) = r at h
      obtain ⟨new, e⟩ := r
      cases e with
      | some e => simp at h
      | none => simp only [R.ok.injEq] at h; subst h; exact ⟨rfl, new, hu, rfl⟩
  | .textU rt n impl => fun v V hw _ _ _ h => by
    simp only [decV] at h
    cases v with
    | null i e =>
      change R.ok (Val.user (zeros n)) = _ at h
      cases h; exact .inl ⟨⟨i, e, rfl⟩, rfl⟩
    | bool b i e => cases h
    | num b i e => cases b <;> simp [leaf, Doc.slice_text hw.1 hw.2.1, onInteger, onNumber, actV] at h
    | arr i es z => cases h
    | obj i ms z => cases h
    | str i e =>
      obtain ⟨out, hout⟩ := hw.2.2
      simp only [leaf, Doc.slice_inner hw, onString, C09_unescape _ _ hout, actV, zeroV] at h
      cases impl with
      | false => simp [textCall] at h
      | true =>
        simp only [textCall] at h
        generalize hu : x.unmarshalText rt (zeros n) out = r at h
        obtain ⟨new, e'⟩ := r
        cases e' with
        | some e' => simp at h
        | none => simp only [R.ok.injEq] at h; subst h; exact .inr ⟨i, e, out, new, rfl, rfl, hout, hu, rfl⟩
  | .array0 => fun v V hw _ _ _ h => by
    cases v with
    | arr i vs k => cases h; exact ⟨.inr ⟨i, vs, k, rfl⟩, rfl⟩
    | _ =>
      have hn := leaf_wrong hw trivial h
      obtain ⟨i, e, hn⟩ := hn
      rw [hn] at h ⊢
      cases h
      exact ⟨.inl ⟨i, e, rfl⟩, rfl⟩
  | .emptyStruct => fun v V hw _ _ _ h => by
    cases v with
    | obj i vs k => cases h
    | _ =>
      have hn := leaf_wrong hw trivial h
      obtain ⟨i, e, hn⟩ := hn
      rw [hn] at h ⊢
      cases h
      exact ⟨.inl ⟨i, e, rfl⟩, rfl⟩
  | .array n e => fun v V hw hz he ho h => by
    cases v with
    | arr i vs k =>
      simp only [decV, zeroV] at h
      obtain ⟨Ws, g1, rfl⟩ := map_ok_iff.1 h
      obtain ⟨g2, g3⟩ := elemsV_inv (P := Means x src o e) (fun w hm W hW =>
        sound hx ht e w W (Safe.wfL_mem hw.2.2.2.2 _ (List.mem_of_mem_take hm)) (nzL_mem hz _ (List.mem_of_mem_take hm)) he (ho i vs k rfl w hm) hW) g1
      exact .inr ⟨i, vs, k, Ws, rfl, rfl, g2, g3⟩
    | _ =>
      have hn := leaf_wrong hw trivial h
      obtain ⟨i, e, hn⟩ := hn
      rw [hn] at h ⊢
      cases h
      exact .inl ⟨⟨i, e, rfl⟩, rfl⟩
  | .slice e => fun v V hw hz he ho h => by
    cases v with
    | arr i vs k =>
      exact .inr ⟨i, vs, k, rfl, slice_inv (fun w hm W hW => sound hx ht e w W (Safe.wfL_mem hw.2.2.2.2 _ hm) (nzL_mem hz _ hm) he (ho i vs k rfl w hm) hW) h⟩
    | _ =>
      have hn := leaf_wrong hw trivial h
      obtain ⟨i, e, hn⟩ := hn
      rw [hn] at h ⊢
      cases h
      exact .inl ⟨⟨i, e, rfl⟩, rfl⟩
  | .sliceOf sk => fun v V hw hz he ho h => by
    cases v with
    | arr i vs k =>
      exact .inr ⟨i, vs, k, rfl, sliceOf_inv (fun w hm W hW => by
        rw [elem_scalar x (some o) sk (Safe.wfL_mem hw.2.2.2.2 _ hm)] at hW
        exact scalar_inv hx he (Safe.wfL_mem hw.2.2.2.2 _ hm) (nzL_mem hz _ hm) hW) h⟩
    | _ =>
      have hn := leaf_wrong hw trivial h
      obtain ⟨i, e, hn⟩ := hn
      rw [hn] at h ⊢
      cases h
      exact .inl ⟨⟨i, e, rfl⟩, rfl⟩
  | .sliceES => fun v V _ _ he _ _ => he.elim
  | .mapSS => fun v V hw hz he ho h => by
    cases v with
    | obj i ms k =>
      simp only [decV] at h
      cases hm : mapSSV x src ms [] with
      | none => simp [hm] at h
      | some r =>
        cases r with
        | error e => simp [hm] at h
        | ok es =>
          simp only [hm, R.ok.injEq] at h
          subst h
          exact .inr ⟨i, ms, k, rfl, entries_inv (f := decV x src (some o) (.scalar .str)) (z := zeroS .str) (fresh := true) (by intro ik hc; cases hc) hw.2.2.2.2
            (fun m hm W hW => scalar_inv hx (k := .str) trivial (Safe.wfM_mem hw.2.2.2.2 _ hm).2 (nzM_mem hz _ hm) hW) (ho i ms k rfl) (mapSS_inv hw.2.2.2.2 hm)⟩
    | _ =>
      have hn := leaf_wrong hw trivial h
      obtain ⟨i, e, hn⟩ := hn
      rw [hn] at h ⊢
      cases h
      exact .inl ⟨⟨i, e, rfl⟩, rfl⟩
  | .map kt e => fun v V hw hz he ho h => by
    cases v with
    | obj i ms k =>
      simp only [decV] at h
      split at h
      · cases h
      · obtain ⟨es, g1, rfl⟩ := map_ok_iff.1 h
        exact .inr ⟨i, ms, k, rfl, entries_inv he.1 hw.2.2.2.2
          (fun m hm W hW => sound hx ht e m.2 W (Safe.wfM_mem hw.2.2.2.2 _ hm).2 (nzM_mem hz _ hm) he.2 ((ho i ms k rfl).1 m hm) hW) (ho i ms k rfl).2 g1⟩
    | _ =>
      have hn := leaf_wrong hw trivial h
      obtain ⟨i, e, hn⟩ := hn
      rw [hn] at h ⊢
      cases h
      exact .inl ⟨⟨i, e, rfl⟩, rfl⟩
  | .struct n fs => fun v V hw hz he ho h => by
    cases v with
    | obj i ms k =>
      have hwm := hw.2.2.2.2
      simp only [zeroV] at h
      rw [struct_reads] at h
      obtain ⟨Ws', g, rfl⟩ := map_ok_iff.1 h
      refine struct_sound hw (Val.decVF_names _ _ _ fs) (fun m hm j hs f hf => ⟨decV x src (some o) f.2.2, by rw [Val.decVF_get, hf]; rfl, fun W e2 => ?_⟩) (ho i ms k rfl).2 g
      refine soundF hx ht fs f (List.mem_of_getElem? hf) m.2 W (Safe.wfM_mem hwm _ hm).2 (nzM_mem hz _ hm) (exactF_mem he f (List.mem_of_getElem? hf)) ?_ e2
      exact (ho i ms k rfl).1 m hm j _ hs (by rw [onceF_get, hf]; rfl)
    | _ =>
      have hn := leaf_wrong hw trivial h
      obtain ⟨i, e, hn⟩ := hn
      rw [hn] at h ⊢
      cases h
      exact .inl ⟨⟨i, e, rfl⟩, rfl⟩
  | .ptr e => fun v V hw hz he ho h => by
    by_cases hnull : ∃ i k, v = .null i k
    · obtain ⟨i, k, rfl⟩ := hnull; cases h; exact .inl ⟨⟨i, k, rfl⟩, rfl⟩
    · rw [Safe.dec_ptr fun i k hc => hnull ⟨i, k, hc⟩] at h
      simp only [map_ok_iff] at h
      obtain ⟨W1, g1, rfl⟩ := h
      exact .inr ⟨hnull, W1, rfl, sound hx ht e v W1 hw hz he ho g1⟩
theorem soundF {x : Ext} (hx : FloatContract x) (ht : x.tokFloat64 = x.parseFloat64) {src : Bytes} {o : Options} : ∀ (fs : List (Bytes × Nat × Ty)), ∀ f ∈ fs, Sound x src o f.2.2
  | (_, _, t) :: fs, f, hf => by
    rcases List.mem_cons.1 hf with rfl | hf
    · exact sound hx ht t
    · exact soundF hx ht fs f hf
end

/-- A document that is accepted has a meaning. -/
theorem top_sound {x : Ext} (hx : FloatContract x) (ht : x.tokFloat64 = x.parseFloat64) {src : Bytes} {o : Options} : ∀ (ty : Ty) (v : JVal) (V : Val), Wf src v → noNegZero src v →
    Exact x ty → Once x src o ty v → decTopV x src (some o) ty v (zeroV x ty) = .ok V → Means x src o ty v V
  | .ptr e, v, V, hw, hz, he, ho, h => by
    by_cases hn : IsNull v
    · obtain ⟨i, e, rfl⟩ := hn
      cases h; exact .inl ⟨⟨i, e, rfl⟩, rfl⟩
    · have h' : (if tokOK src v = false then R.crash else if e.size x = 0 then .unsup else (decTopV x src (some o) e v (zeroV x e)).map Val.ptr) = .ok V := by
        cases v with
        | null i e => exact absurd ⟨i, e, rfl⟩ hn
        | _ => exact h
      rw [Safe.tokOK_wf hw] at h'
      simp only [Bool.true_eq_false, if_false] at h'
      split at h'
      · cases h'
      · obtain ⟨W, g1, rfl⟩ := map_ok_iff.1 h'
        exact .inr ⟨hn, W, rfl, top_sound hx ht e v W hw hz he ho g1⟩
  | .emptyStruct, v, V, hw, hz, he, ho, h => by
    cases v with
    | obj i ms k => cases h; exact ⟨.inr ⟨i, ms, k, rfl⟩, rfl⟩
    | _ => exact sound hx ht .emptyStruct _ V hw hz he ho h
  | .any, v, V, hw, hz, he, ho, h | .number, v, V, hw, hz, he, ho, h | .scalar _, v, V, hw, hz, he, ho, h | .quoted _, v, V, hw, hz, he, ho, h | .jsonU _ _ _, v, V, hw, hz, he, ho, h
  | .textU _ _ _, v, V, hw, hz, he, ho, h | .array0, v, V, hw, hz, he, ho, h | .array _ _, v, V, hw, hz, he, ho, h | .slice _, v, V, hw, hz, he, ho, h | .sliceOf _, v, V, hw, hz, he, ho, h
  | .sliceES, v, V, hw, hz, he, ho, h | .mapSS, v, V, hw, hz, he, ho, h | .map _ _, v, V, hw, hz, he, ho, h | .struct _ _, v, V, hw, hz, he, ho, h => sound hx ht _ v V hw hz he ho h

end Verif.Proof.Means

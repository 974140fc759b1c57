import Verif.Spec.Twice
import Verif.Proof.CompMap
import Verif.Proof.Typed
/-!
# Decoding twice
-/
namespace Verif.Proof.Twice
open Verif.Model Verif.Big Verif.Spec Verif.Proof Verif.Proof.Outcome Verif.Proof.Comp Verif.Proof.Safe Verif.Proof.Typed

theorem actV_twice {i : Nat} {z V V' : Val} {call : Option (Block → Bytes → Block × Option Nat)} {a : Act}
    (hc : ∀ f old t new, call = some f → f old t = (new, none) → f new t = (new, none)) (h : actV i z call V a = .ok V') : actV i z call V' a = .ok V' := by
  cases a with
  | store _ _ => exact h
  | clear _ => exact h
  | nop => rfl
  | text t =>
    simp only [actV] at h
    split at h
    · rename_i f old
      split at h
      · rename_i new hr
        cases h
        simp only [actV, hc f old t new rfl hr]
      · cases h
    · cases h
  | err _ => cases h
  | crash => cases h
  | toPtr => cases h
  | toJSON => cases h

theorem leafV_twice {x : Ext} {src : Bytes} {ty : Ty} {v : JVal} {V V' : Val} (h : leafV x src ty v V = .ok V') : leafV x src ty v V' = .ok V' :=
  actV_twice (by simp) h

theorem leafV_arr {x : Ext} {src : Bytes} {ty : Ty} {v : JVal} {V V' : Val} (hk : ∀ i e, v ≠ .null i e) (hty : (∃ n e, ty = .array n e) ∨ ∃ n fs, ty = .struct n fs) : leafV x src ty v V ≠ .ok V' := by
  intro h
  rcases hty with ⟨n, e, rfl⟩ | ⟨n, fs, rfl⟩ <;> unfold leafV at h <;> cases v with
  | null i e => exact hk i e rfl
  | num b i e => cases b <;> simp only [leaf] at h <;> split at h <;> cases h
  | str i e => simp only [leaf] at h; split at h <;> cases h
  | _ => cases h

theorem elems_twice {f : JVal → Val → R Val} {T : Val → Prop} : ∀ (vs : List JVal) (Ws Ws' : List Val), (∀ v ∈ vs.take Ws.length, ∀ W W', T W → f v W = .ok W' → f v W' = .ok W') → (∀ W ∈ Ws, T W) →
    elemsV f vs Ws = .ok Ws' → Ws'.length = Ws.length ∧ elemsV f vs Ws' = .ok Ws'
  | [], Ws, Ws', _, _, h => by simp only [elemsV, R.ok.injEq] at h; subst h; simp [elemsV]
  | v :: vs, [], Ws', _, _, h => by simp only [elemsV, R.ok.injEq] at h; subst h; simp [elemsV]
  | v :: vs, W :: Ws, Ws', hf, hT, h => by
    simp only [List.length_cons, List.take_succ_cons] at hf
    simp only [elemsV] at h
    cases hr : f v W with
    | ok W1 =>
      simp only [hr, map_ok_iff] at h
      obtain ⟨Us, h1, rfl⟩ := h
      obtain ⟨g1, g2⟩ := elems_twice vs Ws Us (fun v hv => hf v (List.mem_cons_of_mem _ hv)) (fun W hW => hT W (List.mem_cons_of_mem _ hW)) h1
      refine ⟨by simp [g1], ?_⟩
      simp only [elemsV, hf v List.mem_cons_self W W1 (hT W List.mem_cons_self) hr, g2, R.map]
    | err i e W1 => simp [hr] at h
    | crash => simp [hr] at h
    | unsup => simp [hr] at h

theorem slice_twice {f : JVal → Val → R Val} {T : Val → Prop} {z V V' : Val} {c : Bool} {vs : List JVal} (hV : SliceP T V) (hz : T z) (hf : ∀ v ∈ vs, ∀ W W', T W → f v W = .ok W' → f v W' = .ok W')
    (h : sliceV f z c vs V = .ok V') : sliceV f z c vs V' = .ok V' := by
  unfold sliceV at h ⊢
  by_cases hn : vs = []
  · simp only [hn, if_true] at h ⊢; exact h
  · simp only [hn, if_false, map_ok_iff] at h ⊢
    obtain ⟨es, h1, rfl⟩ := h
    have hT := prepSlice_P (c := c) (n := vs.length) hV hz
    obtain ⟨g1, g2⟩ := elems_twice vs _ es (fun v hv => hf v (List.mem_of_mem_take hv)) (fun W hW => hT W (List.mem_append_left _ hW)) h1
    have hl : es.length = vs.length := by
      rw [g1]
      unfold prepSlice
      simp only
      split
      · rename_i hlt
        simp only [List.length_append] at hlt
        split <;> simp; omega
      · rename_i hlt
        simp only [List.length_append] at hlt
        simp; omega
    have hp : prepSlice z c vs.length (.slice es (prepSlice z c vs.length V).2) = (es, (prepSlice z c vs.length V).2) := by
      generalize (prepSlice z c vs.length V).2 = sp
      have hlt : ¬ (es ++ sp).length < vs.length := by simp only [List.length_append]; omega
      simp only [prepSlice, sliceParts, hlt, if_false]
      rw [← hl]
      simp
    rw [hp]
    exact ⟨es, g2, rfl⟩

theorem sliceOf_twice {f : JVal → Val → R Val} {T : Val → Prop} {z V V' : Val} {vs : List JVal} (hV : SliceP T V) (hz : T z) (hf : ∀ v ∈ vs, ∀ W W', T W → f v W = .ok W' → f v W' = .ok W')
    (h : sliceOfV f z vs V = .ok V') : sliceOfV f z vs V' = .ok V' := by
  have key : ∀ es sp, es.length = vs.length → elemsV f vs es = .ok es → vs ≠ [] → sliceOfV f z vs (.slice es sp) = .ok (.slice es sp) := by
    intro es sp hl he hn
    unfold sliceOfV
    have hlt : ¬ (es ++ sp).length < vs.length := by simp only [List.length_append]; omega
    have ht : (es ++ sp).take vs.length = es := by rw [← hl]; simp
    have hd : (es ++ sp).drop vs.length = sp := by rw [← hl]; simp
    simp only [hn, if_false, sliceParts, hlt, ht, hd, he]
  unfold sliceOfV at h
  by_cases hn : vs = []
  · subst hn
    simp only [if_true] at h
    cases h
    simp [sliceOfV]
  · simp only [hn, if_false] at h
    split at h
    · cases hr : elemsV f vs (List.replicate vs.length z) with
      | ok es =>
        rw [hr] at h; cases h
        obtain ⟨g1, g2⟩ := elems_twice vs _ es (fun v hv => hf v (List.mem_of_mem_take hv)) (fun W hW => List.eq_of_mem_replicate hW ▸ hz) hr
        exact key es [] (by simpa using g1) g2 hn
      | err i e es => simp [hr] at h
      | crash => simp [hr] at h
      | unsup => simp [hr] at h
    · rename_i hlt
      cases hr : elemsV f vs (((sliceParts V).1 ++ (sliceParts V).2).take vs.length) with
      | ok es =>
        rw [hr] at h; cases h
        obtain ⟨g1, g2⟩ := elems_twice vs _ es (fun v hv => hf v (List.mem_of_mem_take hv)) (fun W hW => sliceParts_P hV W (List.mem_of_mem_take hW)) hr
        exact key es _ (by rw [g1, List.length_take]; omega) g2 hn
      | err i e es => simp [hr] at h
      | crash => simp [hr] at h
      | unsup => simp [hr] at h

/-! ## Structs -/

theorem struct_fix {x : Ext} {src : Bytes} {o : Options} {fs : List (Bytes × (JVal → Val → R Val))} {Us : List Val} : ∀ (ms : List ((Nat × Nat) × JVal)) (Ws Ws' : List Val), WfM src ms →
    structV x src o fs ms Ws = .ok Ws' → (∀ m ∈ ms, ∀ (j : Nat) f, KeySelects x src o (fs.map (·.1)) m.1 j → fs[j]? = some f → ∃ W, Us[j]? = some W ∧ f.2 m.2 W = .ok W) →
    structV x src o fs ms Us = .ok Us
  | [], _, _, _, _, _ => rfl
  | ((a, z), v) :: ms, Ws, Ws', hw, h, hu => by
    obtain ⟨name, h1, h2, -⟩ := key_fun x o (fs.map (·.1)) (k := (a, z)) hw.1
    have ih := fun Ws h => struct_fix ms Ws Ws' hw.2.2 h fun m hm => hu m (List.mem_cons_of_mem _ hm)
    simp only [structV, h1] at h ⊢
    cases hf : findField x o ((fs.map (·.1)).zipIdx) name with
    | some j =>
      simp only [hf] at h ⊢
      cases hg : fs[j]? with
      | none => simp [hg] at h
      | some f =>
        obtain ⟨W, hW, hfW⟩ := hu _ List.mem_cons_self j f ((h2 j).2 hf) hg
        have hset : Us.set j W = Us := by
          obtain ⟨hj, rfl⟩ := List.getElem?_eq_some_iff.1 hW
          exact List.set_getElem_self hj
        simp only [hg] at h
        simp only [hW, hfW, hset]
        cases hW0 : Ws[j]? with
        | none => simp [hW0] at h
        | some W0 =>
          simp only [hW0] at h
          cases hr : f.2 v W0 with
          | ok W1 => simp only [hr] at h; exact ih _ h
          | err i e W1 => simp [hr] at h
          | crash => simp [hr] at h
          | unsup => simp [hr] at h
    | none =>
      simp only [hf] at h ⊢
      split at h
      · cases h
      · rename_i hd
        rw [if_neg hd]
        split at h
        · cases h
        · rename_i ho
          rw [if_neg ho]
          exact ih _ h

/-- An element of a list and what is around it. -/
theorem mem_split {α : Type} {l : List α} {a : α} (h : a ∈ l) : ∃ l1 l2, l = l1 ++ a :: l2 := List.append_of_mem h

theorem struct_twice {x : Ext} {src : Bytes} {o : Options} {fs : List (Bytes × (JVal → Val → R Val))} {ms : List ((Nat × Nat) × JVal)} {Ws Ws' : List Val} (hw : WfM src ms)
    (h : structV x src o fs ms Ws = .ok Ws')
    (h1 : ∀ (a b : Nat) m m' j, ms[a]? = some m → ms[b]? = some m' → KeySelects x src o (fs.map (·.1)) m.1 j → KeySelects x src o (fs.map (·.1)) m'.1 j → a = b)
    (hf : ∀ m ∈ ms, ∀ (j : Nat) f, KeySelects x src o (fs.map (·.1)) m.1 j → fs[j]? = some f → ∀ W W', Ws[j]? = some W → f.2 m.2 W = .ok W' → f.2 m.2 W' = .ok W') :
    structV x src o fs ms Ws' = .ok Ws' := by
  refine struct_fix ms Ws Ws' hw h fun m hm j f hs hg => ?_
  obtain ⟨ms1, ms2, rfl⟩ := mem_split hm
  obtain ⟨k, v⟩ := m
  have hn : ∀ m' ∈ ms2, ¬ KeySelects x src o (fs.map (·.1)) m'.1 j := by
    intro m' hm' hs'
    obtain ⟨b, hb⟩ := mem_get hm'
    have := h1 ms1.length (ms1.length + (b + 1)) (k, v) m' j (by simp) (by simp [List.getElem?_append_right, hb]) hs hs'
    omega
  obtain ⟨W, W', g1, g2, g3⟩ := structV_last hg hs hn hw h
  refine ⟨W', g1, hf _ hm j f hs hg W W' (g3 fun m' hm' hs' => ?_) g2⟩
  obtain ⟨b, hb⟩ := mem_get hm'
  have hb' := (List.getElem?_eq_some_iff.1 hb).1
  have := h1 b ms1.length m' (k, v) j (by rw [List.getElem?_append_left hb']; exact hb) (by simp) hs' hs
  omega

/-! ## Maps -/

theorem assign_self {K : Key} {W : Val} : ∀ {m : List (Key × Val)}, lookupV K m = some W → assignV K W m = m
  | [], h => by cases h
  | e :: m, h => by
    simp only [lookupV] at h
    simp only [assignV]
    split at h
    · rename_i hs
      cases h
      rw [if_pos hs]
    · rename_i hs
      rw [if_neg hs, assign_self h]

theorem map_fix {x : Ext} {src : Bytes} {f : JVal → Val → R Val} {k : KeyTy} {z : Val} {fresh : Bool} {m : List (Key × Val)} : ∀ (ms : List ((Nat × Nat) × JVal)),
    (∀ mm ∈ ms, ∃ K W, keyAt x src k mm.1 = some (.ok K) ∧ lookupV K m = some W ∧ f mm.2 (if fresh then z else W) = .ok W) → mapV x src f k z fresh ms m = .ok m
  | [], _ => rfl
  | ((a, b), v) :: ms, h => by
    obtain ⟨K, W, h1, h2, h3⟩ := h _ List.mem_cons_self
    unfold keyAt at h1
    simp only [] at h1 h3
    simp only [mapV, h1, h2, Option.getD_some, h3, assign_self h2]
    exact map_fix ms fun mm hm => h mm (List.mem_cons_of_mem _ hm)

theorem map_twice {x : Ext} {src : Bytes} {f : JVal → Val → R Val} {T : Val → Prop} {k : KeyTy} {z : Val} {fresh : Bool} {ms : List ((Nat × Nat) × JVal)} {m m' : List (Key × Val)}
    (h : mapV x src f k z fresh ms m = .ok m') (hk : ∀ mm ∈ ms, ∃ K, keyAt x src k mm.1 = some (.ok K))
    (h1 : ∀ (a b : Nat) mm mm' K K', ms[a]? = some mm → ms[b]? = some mm' → keyAt x src k mm.1 = some (.ok K) → keyAt x src k mm'.1 = some (.ok K') → K'.same K = true → a = b)
    (hz : T z) (hm : ∀ e ∈ m, T e.2) (hf : ∀ mm ∈ ms, ∀ W W', T W → f mm.2 W = .ok W' → f mm.2 W' = .ok W') : mapV x src f k z fresh ms m' = .ok m' := by
  refine map_fix ms fun mm hmm => ?_
  obtain ⟨K, hK⟩ := hk mm hmm
  obtain ⟨ms1, ms2, rfl⟩ := mem_split hmm
  obtain ⟨kk, v⟩ := mm
  have hn : ∀ mm' ∈ ms2, ∀ K', keyAt x src k mm'.1 = some (.ok K') → K'.same K = false := by
    intro mm' hm' K' hK'
    cases hs : K'.same K with
    | false => rfl
    | true =>
      obtain ⟨b, hb⟩ := mem_get hm'
      have := h1 ms1.length (ms1.length + (b + 1)) (kk, v) mm' K K' (by simp) (by simp [List.getElem?_append_right, hb]) hK hK' hs
      omega
  obtain ⟨W, W', g1, g2, g3, g4⟩ := mapV_last hK (Mem.same_refl K) hn h
  refine ⟨K, W', hK, g1, ?_⟩
  cases fresh with
  | true => rw [if_pos rfl, ← g3 rfl]; exact g2
  | false =>
    refine hf _ hmm W W' ?_ g2
    rw [g4 rfl fun mm' hm' K' hK' => ?_]
    · exact lookupV_P hz hm
    · cases hs : K'.same K with
      | false => rfl
      | true =>
        obtain ⟨b, hb⟩ := mem_get hm'
        have hb' := (List.getElem?_eq_some_iff.1 hb).1
        have := h1 b ms1.length mm' (kk, v) K' K (by rw [List.getElem?_append_left hb']; exact hb) (by simp) hK' hK (same_symm hs)
        omega

theorem keyOf_same {x : Ext} {k : KeyTy} {raw : Bytes} {K K' : Key} (h : KeyOf x k raw K) (hs : K.same K' = true) : KeyOf x k raw K' := by
  rw [same_iff] at hs
  cases h with
  | str h =>
    cases K' with
    | str s => simp only at hs; rw [hs] at h; exact .str h
    | int _ => exact hs.elim
    | «opaque» _ => exact hs.elim
  | int h =>
    cases K' with
    | int s => simp only at hs; rw [hs] at h; exact .int h
    | str _ => exact hs.elim
    | «opaque» _ => exact hs.elim
  | text h h' =>
    cases K' with
    | «opaque» s => simp only at hs; rw [hs] at h'; exact .text h h'
    | int _ => exact hs.elim
    | str _ => exact hs.elim

theorem keys_apart {x : Ext} {src : Bytes} {k : KeyTy} {ms : List ((Nat × Nat) × JVal)} (hw : WfM src ms) (hk : ∀ m ∈ ms, ∃ K, KeyOf x k (inner src m.1.1 m.1.2) K)
    (h1 : ∀ (a b : Nat) m m' K, ms[a]? = some m → ms[b]? = some m' → KeyOf x k (inner src m.1.1 m.1.2) K → KeyOf x k (inner src m'.1.1 m'.1.2) K → a = b) :
    (∀ mm ∈ ms, ∃ K, keyAt x src k mm.1 = some (.ok K)) ∧
    ∀ (a b : Nat) mm mm' K K', ms[a]? = some mm → ms[b]? = some mm' → keyAt x src k mm.1 = some (.ok K) → keyAt x src k mm'.1 = some (.ok K') → K'.same K = true → a = b := by
  refine ⟨fun mm hm => ?_, fun a b mm mm' K K' ha hb hK hK' hs => ?_⟩
  · obtain ⟨K, hK⟩ := hk mm hm
    obtain ⟨K', h, -⟩ := keyAt_of (wfM_mem hw mm hm).1 hK
    exact ⟨K', h⟩
  · have hm := List.mem_of_getElem? ha
    have hm' := List.mem_of_getElem? hb
    obtain ⟨L, hL⟩ := hk mm hm
    obtain ⟨L', hL'⟩ := hk mm' hm'
    obtain ⟨M, e1, e2⟩ := keyAt_of (wfM_mem hw mm hm).1 hL
    obtain ⟨M', e1', e2'⟩ := keyAt_of (wfM_mem hw mm' hm').1 hL'
    rw [hK] at e1; cases e1
    rw [hK'] at e1'; cases e1'
    refine h1 a b mm mm' L ha hb hL (keyOf_same hL' ?_)
    exact same_trans (same_symm e2') (same_trans hs e2)

/-! ## All types -/

theorem onceF_get {x : Ext} {src : Bytes} {o : Options} : ∀ (fs : List (Bytes × Nat × Ty)) (j : Nat), (OnceF x src o fs)[j]? = fs[j]?.map fun f => Once x src o f.2.2
  | [], j => by simp [OnceF]
  | (a, b, t) :: fs, 0 => by simp [OnceF]
  | (a, b, t) :: fs, j + 1 => by simp only [OnceF, List.getElem?_cons_succ]; exact onceF_get fs j

theorem keyedF_get {x : Ext} {src : Bytes} {o : Options} : ∀ (fs : List (Bytes × Nat × Ty)) (j : Nat), (KeyedF x src o fs)[j]? = fs[j]?.map fun f => Keyed x src o f.2.2
  | [], j => by simp [KeyedF]
  | (a, b, t) :: fs, 0 => by simp [KeyedF]
  | (a, b, t) :: fs, j + 1 => by simp only [KeyedF, List.getElem?_cons_succ]; exact keyedF_get fs j

mutual
theorem dec_twice {x : Ext} (hx : MethodsTwice x) {src : Bytes} {o : Options} : ∀ (ty : Ty) {v : JVal} {V V' : Val}, Wf src v → Once x src o ty v → Keyed x src o ty v → HasTy ty V →
    decV x src (some o) ty v V = .ok V' → decV x src (some o) ty v V' = .ok V'
  | .jsonU rt n impl, v, V, V', hw, h1, h2, hV, h => by
    simp only [decV, jsonV] at h ⊢
    split at h
    · rename_i raw old e1 e2
      split at h
      · rename_i new hr
        cases h
        obtain ⟨new', g1, g2⟩ := hx.1 rt n old raw new hr
        simp only [e1, e2, g1, g2]
      · cases h
    · cases h
  | .textU rt n impl, v, V, V', hw, h1, h2, hV, h => by
    simp only [decV] at h ⊢
    refine actV_twice ?_ h
    intro f old t new hc hf
    cases impl with
    | false => cases hc
    | true =>
      simp only [textCall, Option.some.injEq] at hc
      subst hc
      simp only [Prod.mk.injEq] at hf
      obtain ⟨g1, g2⟩ := hx.2 rt n old t _ (Prod.ext rfl hf.2)
      rw [← hf.1]
      simp [g2.1, g2.2]
  | .any, v, V, V', hw, h1, h2, hV, h => by
    cases v with
    | arr i vs k =>
      simp only [decV, anyV] at h ⊢
      split at h <;> first | cases h; done | skip
      cases h
      rfl
    | obj i ms k =>
      simp only [decV, anyV] at h ⊢
      split at h <;> first | cases h; done | skip
      cases h
      rfl
    | _ => exact leafV_twice h
  | .array0, v, V, V', hw, h1, h2, hV, h => by
    cases v with
    | arr i vs k => rfl
    | _ => exact leafV_twice h
  | .array n e, v, V, V', hw, h1, h2, hV, h => by
    obtain ⟨es, rfl, hn, he⟩ := hV
    cases v with
    | arr i vs k =>
      simp only [decV, map_ok_iff] at h
      obtain ⟨es', g, rfl⟩ := h
      obtain ⟨-, g2⟩ := elems_twice (T := HasTy e) vs es es' (fun v hv W W' hW hr => by
        rw [hn] at hv
        exact dec_twice hx e (wfL_mem hw.2.2.2.2 v (List.mem_of_mem_take hv)) (h1 _ _ _ rfl v hv) (h2 _ _ _ rfl v hv) hW hr) he g
      simp only [decV, g2, R.map]
    | null i k => simp only [decV] at h; cases h; rfl
    | _ => exact absurd h (leafV_arr (by simp) (by simp))
  | .slice e, v, V, V', hw, h1, h2, hV, h => by
    cases v with
    | arr i vs k =>
      exact slice_twice (T := HasTy e) hV (zero_typed e) (fun v hv W W' hW hr => dec_twice hx e (wfL_mem hw.2.2.2.2 v hv) (h1 _ _ _ rfl v hv) (h2 _ _ _ rfl v hv) hW hr) h
    | _ => exact leafV_twice h
  | .sliceOf k, v, V, V', hw, h1, h2, hV, h => by
    cases v with
    | arr i vs kk => exact sliceOf_twice (T := HasK k) hV (zeroS_hasK k) (fun v hv W W' hW hr => actV_twice (by simp) hr) h
    | _ => exact leafV_twice h
  | .sliceES, v, V, V', hw, h1, h2, hV, h => by
    cases v with
    | arr i vs kk => exact h
    | _ => exact leafV_twice h
  | .mapSS, v, V, V', hw, h1, h2, hV, h => by
    cases v with
    | obj i ms k =>
      simp only [decV] at h ⊢
      split at h <;> first | cases h; done | skip
      exact h
    | _ => exact leafV_twice h
  | .map k e, v, V, V', hw, h1, h2, hV, h => by
    cases v with
    | obj i ms kk =>
      simp only [decV] at h ⊢
      split at h
      · cases h
      · rename_i hne
        simp only [hne, if_false]
        simp only [map_ok_iff] at h ⊢
        obtain ⟨m', g, rfl⟩ := h
        have hm : ∀ a ∈ mapParts V, HasTy e a.2 := by
          rcases hV with rfl | ⟨es, rfl, h⟩
          · intro a ha; cases ha
          · exact h
        obtain ⟨h1a, h1b⟩ := h1 _ _ _ rfl
        have h2 := h2 _ _ _ rfl
        obtain ⟨k1, k2⟩ := keys_apart hw.2.2.2.2 (fun m hm => (h2 m hm).1) h1b
        exact ⟨m', map_twice (T := HasTy e) g k1 k2 (zero_typed e) hm fun mm hmm W W' hW hr =>
          dec_twice hx e (wfM_mem hw.2.2.2.2 mm hmm).2 (h1a mm hmm) (h2 mm hmm).2 hW hr, rfl⟩
    | _ => exact leafV_twice h
  | .struct n fs, v, V, V', hw, h1, h2, hV, h => by
    obtain ⟨Ws, rfl, hW⟩ := hV
    cases v with
    | obj i ms k =>
      simp only [decV] at h
      split at h
      · rename_i hn
        cases h
        simp only [decV, hn, if_true]
      · rename_i hn
        simp only [map_ok_iff] at h
        obtain ⟨Ws', g, rfl⟩ := h
        obtain ⟨h1a, h1b⟩ := h1 _ _ _ rfl
        have h2 := h2 _ _ _ rfl
        have := struct_twice (fs := decVF x src (some o) fs) hw.2.2.2.2 g (by rw [Val.decVF_names]; exact h1b) (by
          intro m hm j f hs hf W W' hWj hr
          rw [Val.decVF_names] at hs
          rw [Val.decVF_get] at hf
          cases hfj : fs[j]? with
          | none => rw [hfj] at hf; cases hf
          | some q =>
            rw [hfj] at hf
            cases hf
            obtain ⟨W0, e1, e2⟩ := hasTyF_get hW hfj
            rw [hWj] at e1; cases e1
            exact decF_twice hx fs hfj (wfM_mem hw.2.2.2.2 m hm).2 (h1a m hm j _ hs (by rw [onceF_get, hfj]; rfl)) (h2 m hm j _ hs (by rw [keyedF_get, hfj]; rfl)) e2 hr)
        simp only [decV, hn, if_false, this, R.map]
    | null i k => simp only [decV] at h; cases h; rfl
    | _ => exact absurd h (leafV_arr (by simp) (by simp))
  | .emptyStruct, v, V, V', hw, h1, h2, hV, h => by
    cases v with
    | obj i ms k => cases h
    | _ => exact leafV_twice h
  | .ptr e, v, V, V', hw, h1, h2, hV, h => by
    by_cases hnull : ∃ i k, v = .null i k
    · obtain ⟨i, k, rfl⟩ := hnull; exact h
    · have hn : ∀ i k, v ≠ .null i k := fun i k hc => hnull ⟨i, k, hc⟩
      rw [Safe.dec_ptr hn] at h ⊢
      simp only [map_ok_iff] at h ⊢
      obtain ⟨W1, g1, rfl⟩ := h
      exact ⟨W1, dec_twice hx e hw h1 h2 (Safe.pointee_typed hV) g1, rfl⟩
  | .number, v, V, V', hw, h1, h2, hV, h => leafV_twice h
  | .scalar k, v, V, V', hw, h1, h2, hV, h => leafV_twice h
  | .quoted k, v, V, V', hw, h1, h2, hV, h => leafV_twice h
theorem decF_twice {x : Ext} (hx : MethodsTwice x) {src : Bytes} {o : Options} : ∀ (fs : List (Bytes × Nat × Ty)) {j : Nat} {f : Bytes × Nat × Ty}, fs[j]? = some f → ∀ {v : JVal} {V V' : Val}, Wf src v →
    Once x src o f.2.2 v → Keyed x src o f.2.2 v → HasTy f.2.2 V → decV x src (some o) f.2.2 v V = .ok V' → decV x src (some o) f.2.2 v V' = .ok V'
  | [], j, f, hf, _, _, _, _, _, _, _, _ => by simp at hf
  | (_, _, t) :: fs, 0, f, hf, v, V, V', hw, h1, h2, hV, h => by
    simp only [List.getElem?_cons_zero, Option.some.injEq] at hf
    subst hf
    exact dec_twice hx t hw h1 h2 hV h
  | _ :: fs, j + 1, f, hf, v, V, V', hw, h1, h2, hV, h => by
    simp only [List.getElem?_cons_succ] at hf
    exact decF_twice hx fs hf hw h1 h2 hV h
end

theorem top_twice {x : Ext} (hx : MethodsTwice x) {src : Bytes} {o : Options} {ty : Ty} {v : JVal} {V V' : Val} (hw : Wf src v) (h1 : Once x src o ty v) (h2 : Keyed x src o ty v) (hV : HasTy ty V)
    (h : decTopV x src (some o) ty v V = .ok V') : decTopV x src (some o) ty v V' = .ok V' := by
  cases ty with
  | ptr e => exact h
  | emptyStruct =>
    cases v with
    | obj i ms k => rfl
    | _ => exact dec_twice hx .emptyStruct hw h1 h2 hV h
  | _ => exact dec_twice hx _ hw h1 h2 hV h

end Verif.Proof.Twice

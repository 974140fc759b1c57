import Verif.Spec.Reorder
import Verif.Proof.Twice
import Verif.Proof.Same
import Verif.Proof.MeansConv
import Verif.Props.Any
import Verif.Proof.Drop
/-!
# The order of object members
-/
namespace Verif.Proof.Reorder
open Verif.Model Verif.Big Verif.Spec Verif.Proof Verif.Proof.Outcome Verif.Proof.Comp Verif.Proof.Safe Verif.Proof.Typed Verif.Proof.Twice

/-! ## Equality -/

theorem lookup_size {K : Key} {V : Val} : ∀ {es : List (Key × Val)}, lookupV K es = some V → sizeOf V < sizeOf es
  | [], h => by cases h
  | (k, W) :: es, h => by
    simp only [lookupV] at h
    split at h
    · cases h; simp; omega
    · have := lookup_size h; simp; omega

theorem mem_size {V : Val} {j : Nat} : ∀ {es : List Val}, es[j]? = some V → sizeOf V < sizeOf es := fun h => List.sizeOf_lt_of_mem (List.mem_of_getElem? h)

theorem go_refl : ∀ V : Val, GoEq V V
  | .bool _ => .bool
  | .int _ => .int
  | .flt _ => .flt
  | .str _ => .str rfl
  | .any a => .any (Same.sameAny_refl a)
  | .user _ => .user
  | .nil => .nil
  | .ptr V => .ptr (go_refl V)
  | .arr Vs => .arr rfl fun j V W h h' => by cases h.symm.trans h'; have := mem_size h; exact go_refl V
  | .slice Vs sp => .slice rfl (fun j V W h h' => by cases h.symm.trans h'; have := mem_size h; exact go_refl V) rfl fun j V W h h' => by cases h.symm.trans h'; have := mem_size h; exact go_refl V
  | .map es => .map (fun _ => rfl) fun K V W h h' => by cases h.symm.trans h'; have := lookup_size h; exact go_refl V
  | .struct Vs => .struct rfl fun j V W h h' => by cases h.symm.trans h'; have := mem_size h; exact go_refl V
termination_by V => sizeOf V
decreasing_by all_goals (first | (simp_wf; omega) | simp_wf)

/-- Element by element. -/
def GoL (Vs Ws : List Val) : Prop := Vs.length = Ws.length ∧ ∀ (j : Nat) V W, Vs[j]? = some V → Ws[j]? = some W → GoEq V W

theorem goL_refl (Vs : List Val) : GoL Vs Vs := ⟨rfl, fun j V W h h' => by cases h.symm.trans h'; exact go_refl V⟩

theorem goL_cons {V W : Val} {Vs Ws : List Val} (h : GoEq V W) (hs : GoL Vs Ws) : GoL (V :: Vs) (W :: Ws) := by
  refine ⟨by simp [hs.1], fun j A B hA hB => ?_⟩
  cases j with
  | zero => cases hA; cases hB; exact h
  | succ j => exact hs.2 j A B (by simpa using hA) (by simpa using hB)

theorem goL_set {Vs Ws : List Val} {j : Nat} {V W : Val} (h : GoL Vs Ws) (hV : Vs[j]? = some V) (hW : GoEq V W) : GoL Vs (Ws.set j W) := by
  refine ⟨by simp [h.1], fun i A B hA hB => ?_⟩
  rw [List.getElem?_set] at hB
  split at hB
  · rename_i hij; subst hij
    split at hB
    · cases hB; cases hV.symm.trans hA; exact hW
    · cases hB
  · exact h.2 i A B hA hB

/-- Entry by entry. -/
def GoM (es es' : List (Key × Val)) : Prop := (∀ K, (lookupV K es).isSome = (lookupV K es').isSome) ∧ ∀ K V W, lookupV K es = some V → lookupV K es' = some W → GoEq V W

/-- The same entries. -/
def SameM (es es' : List (Key × Val)) : Prop := ∀ K, lookupV K es = lookupV K es'

theorem goM_of_ext {es es' : List (Key × Val)} (h : SameM es es') : GoM es es' := ⟨fun K => by rw [h K], fun K V W h1 h2 => by rw [h K] at h1; cases h1.symm.trans h2; exact go_refl V⟩

theorem lookup_assign (k : Key) (v : Val) (m : List (Key × Val)) (K : Key) : lookupV K (assignV k v m) = if k.same K = true then some v else lookupV K m := by
  by_cases h : k.same K = true
  · rw [if_pos h, ← lookupV_same h]; exact lookupV_assign k v m
  · rw [if_neg h]; exact lookupV_assign_ne (by simpa using h) v m

/-! ## Documents -/

theorem wf_leaf {x : Ext} {src src' : Bytes} {et : EType} {v v' : JVal} (hw : Wf src v) (hw' : Wf src' v') (h : Reordered src src' v v') : leaf x src et v = leaf x src' et v' := by
  cases v with
  | null => obtain ⟨_, _, rfl⟩ := h; rfl
  | bool => obtain ⟨_, _, rfl⟩ := h; rfl
  | num b i e =>
    obtain ⟨i', e', rfl, ht⟩ := h
    cases b <;> simp only [leaf, Doc.slice_text hw.1 hw.2.1, Doc.slice_text hw'.1 hw'.2.1, ht]
  | str i e =>
    obtain ⟨i', e', rfl, ht⟩ := h
    simp only [leaf, Doc.slice_inner hw, Doc.slice_inner hw', ht]
  | arr => obtain ⟨_, _, _, rfl, -⟩ := h; rfl
  | obj => obtain ⟨_, _, _, rfl, -⟩ := h; rfl

theorem act_ok {i i' : Nat} {z V W : Val} {call : Option (Block → Bytes → Block × Option Nat)} {a : Act} (h : actV i z call V a = .ok W) : actV i' z call V a = .ok W := by
  cases a with
  | text t =>
    simp only [actV] at h ⊢
    split at h
    · split at h
      · exact h
      · cases h
    · cases h
  | err e => cases h
  | _ => exact h

theorem leafV_ok {x : Ext} {src src' : Bytes} {ty : Ty} {v v' : JVal} {V W : Val} (hw : Wf src v) (hw' : Wf src' v') (hr : Reordered src src' v v') (h : leafV x src ty v V = .ok W) :
    leafV x src' ty v' V = .ok W := by
  unfold leafV at h ⊢
  rw [← wf_leaf hw hw' hr]
  exact act_ok h

theorem reL_get {src src' : Bytes} : ∀ {vs vs' : List JVal}, ReorderedL src src' vs vs' → vs.length = vs'.length ∧ ∀ (j : Nat) v v', vs[j]? = some v → vs'[j]? = some v' → Reordered src src' v v'
  | [], vs', h => by cases h; exact ⟨rfl, fun j v v' h => by simp at h⟩
  | v :: vs, vs', h => by
    obtain ⟨w, ws, rfl, h1, h2⟩ := h
    obtain ⟨g1, g2⟩ := reL_get h2
    refine ⟨by simp [g1], fun j a b ha hb => ?_⟩
    cases j with
    | zero => cases ha; cases hb; exact h1
    | succ j => exact g2 j a b (by simpa using ha) (by simpa using hb)

/-- The member of the first document that a member of the second one is. -/
theorem reM_back {src src' : Bytes} : ∀ {ms ms' : List ((Nat × Nat) × JVal)}, ReorderedM src src' ms ms' → ∀ m' ∈ ms', ∃ m ∈ ms, inner src m.1.1 m.1.2 = inner src' m'.1.1 m'.1.2 ∧ Reordered src src' m.2 m'.2
  | [], ms', h, m', hm => by cases h; cases hm
  | m :: ms, ms', h, m', hm => by
    obtain ⟨l, k, w, r, rfl, h1, h2, h3⟩ := h
    by_cases he : m' = (k, w)
    · subst he; exact ⟨m, List.mem_cons_self, h1, h2⟩
    · have : m' ∈ l ++ r := by
        simp only [List.mem_append, List.mem_cons] at hm ⊢
        rcases hm with hm | hm | hm
        · exact .inl hm
        · exact absurd hm he
        · exact .inr hm
      obtain ⟨m0, g0, g1⟩ := reM_back h3 m' this
      exact ⟨m0, List.mem_cons_of_mem _ g0, g1⟩

theorem reM_forth {src src' : Bytes} : ∀ {ms ms' : List ((Nat × Nat) × JVal)}, ReorderedM src src' ms ms' → ∀ m ∈ ms, ∃ m' ∈ ms', inner src m.1.1 m.1.2 = inner src' m'.1.1 m'.1.2 ∧ Reordered src src' m.2 m'.2
  | [], ms', h, m, hm => by cases hm
  | m0 :: ms, ms', h, m, hm => by
    obtain ⟨l, k, w, r, rfl, h1, h2, h3⟩ := h
    rcases List.mem_cons.1 hm with hm | hm
    · subst hm; exact ⟨(k, w), by simp, h1, h2⟩
    · obtain ⟨m1, g0, g1⟩ := reM_forth h3 m hm
      refine ⟨m1, ?_, g1⟩
      simp only [List.mem_append, List.mem_cons] at g0 ⊢
      rcases g0 with g0 | g0
      · exact .inl g0
      · exact .inr (.inr g0)

theorem reM_nil {src src' : Bytes} {ms ms' : List ((Nat × Nat) × JVal)} (h : ReorderedM src src' ms ms') : ms = [] ↔ ms' = [] := by
  cases ms with
  | nil => cases h; simp
  | cons m ms => obtain ⟨l, k, w, r, rfl, -⟩ := h; simp

theorem wfM_cut {src : Bytes} {k : Nat × Nat} {w : JVal} : ∀ {l r : List ((Nat × Nat) × JVal)}, WfM src (l ++ (k, w) :: r) → WfStr src k.1 k.2 ∧ Wf src w ∧ WfM src (l ++ r)
  | [], r, h => h
  | m :: l, r, h => by
    obtain ⟨h1, h2, h3⟩ := wfM_cut (l := l) h.2.2
    exact ⟨h1, h2, h.1, h.2.1, h3⟩

theorem re_null {src src' : Bytes} {v v' : JVal} (hr : Reordered src src' v v') (h : ∃ i k, v' = .null i k) : ∃ i k, v = .null i k := by
  obtain ⟨i, k, rfl⟩ := h
  cases v with
  | null i k => exact ⟨i, k, rfl⟩
  | bool => obtain ⟨_, _, h⟩ := hr; cases h
  | num => obtain ⟨_, _, h, -⟩ := hr; cases h
  | str => obtain ⟨_, _, h, -⟩ := hr; cases h
  | arr => obtain ⟨_, _, _, h, -⟩ := hr; cases h
  | obj => obtain ⟨_, _, _, h, -⟩ := hr; cases h

mutual
theorem re_hasObj {src src' : Bytes} : ∀ v v' : JVal, Reordered src src' v v' → hasObj v = hasObj v'
  | .null _ _, v', h => by obtain ⟨_, _, rfl⟩ := h; rfl
  | .bool _ _ _, v', h => by obtain ⟨_, _, rfl⟩ := h; rfl
  | .num _ _ _, v', h => by obtain ⟨_, _, rfl, -⟩ := h; rfl
  | .str _ _, v', h => by obtain ⟨_, _, rfl, -⟩ := h; rfl
  | .arr _ vs _, v', h => by obtain ⟨_, vs', _, rfl, h⟩ := h; exact re_hasObjL vs vs' h
  | .obj _ _ _, v', h => by obtain ⟨_, _, _, rfl, -⟩ := h; rfl
theorem re_hasObjL {src src' : Bytes} : ∀ vs vs' : List JVal, ReorderedL src src' vs vs' → hasObjL vs = hasObjL vs'
  | [], vs', h => by cases h; rfl
  | v :: vs, vs', h => by
    obtain ⟨w, ws, rfl, h1, h2⟩ := h
    simp only [hasObjL, re_hasObj v w h1, re_hasObjL vs ws h2]
end

/-! ## Lists -/

theorem elems_re {f f' : JVal → Val → R Val} {src src' : Bytes} {T : Val → Prop} : ∀ (vs vs' : List JVal) (Ws Ws1 : List Val), ReorderedL src src' vs vs' → WfL src vs → WfL src' vs' → (∀ W ∈ Ws, T W) →
    (∀ v ∈ vs.take Ws.length, ∀ v', Wf src v → Wf src' v' → Reordered src src' v v' → ∀ W W1, T W → f v W = .ok W1 → ∃ W1', f' v' W = .ok W1' ∧ GoEq W1 W1') →
    elemsV f vs Ws = .ok Ws1 → ∃ Ws1', elemsV f' vs' Ws = .ok Ws1' ∧ GoL Ws1 Ws1'
  | [], vs', Ws, Ws1, hr, _, _, _, _, h => by cases hr; simp only [elemsV, R.ok.injEq] at h; subst h; exact ⟨_, rfl, goL_refl _⟩
  | v :: vs, vs', [], Ws1, hr, _, _, _, _, h => by
    obtain ⟨w, ws, rfl, -, -⟩ := hr
    simp only [elemsV, R.ok.injEq] at h; subst h; exact ⟨_, rfl, goL_refl _⟩
  | v :: vs, vs', W :: Ws, Ws1, hr, hw, hw', hT, hf, h => by
    obtain ⟨w, ws, rfl, h1, h2⟩ := hr
    simp only [List.length_cons, List.take_succ_cons] at hf
    simp only [elemsV] at h
    cases hv : f v W <;> rw [hv] at h <;> simp only at h <;> first | cases h; done | skip
    rename_i W1
    rw [map_ok_iff] at h
    obtain ⟨Ws2, g1, rfl⟩ := h
    obtain ⟨W1', g2, g3⟩ := hf v List.mem_cons_self w hw.1 hw'.1 h1 W W1 (hT W List.mem_cons_self) hv
    obtain ⟨Ws2', g4, g5⟩ := elems_re vs ws Ws Ws2 h2 hw.2 hw'.2 (fun a ha => hT a (List.mem_cons_of_mem _ ha)) (fun a ha => hf a (List.mem_cons_of_mem _ ha)) g1
    exact ⟨W1' :: Ws2', by simp only [elemsV, g2, g4, R.map], goL_cons g3 g5⟩

/-! ## Structs -/

section
variable {x : Ext} {src : Bytes} {o : Options} {fs : List (Bytes × (JVal → Val → R Val))}

theorem struct_set {j : Nat} {A : Val} : ∀ (ms : List ((Nat × Nat) × JVal)) (Ws Y : List Val), WfM src ms → (∀ m ∈ ms, ¬ KeySelects x src o (fs.map (·.1)) m.1 j) →
    structV x src o fs ms Ws = .ok Y → structV x src o fs ms (Ws.set j A) = .ok (Y.set j A)
  | [], Ws, Y, _, _, h => by cases h; rfl
  | ((a, z), v) :: ms, Ws, Y, hw, hn, h => by
    obtain ⟨name, h1, h2, -⟩ := key_fun x o (fs.map (·.1)) (k := (a, z)) hw.1
    have ih := fun Ws h => struct_set (A := A) ms Ws Y hw.2.2 (fun m hm => hn m (List.mem_cons_of_mem _ hm)) h
    simp only [structV, h1] at h ⊢
    cases hff : findField x o (fs.map (·.1)).zipIdx name with
    | none =>
      simp only [hff] at h ⊢
      split at h
      · cases h
      · rename_i hd
        split at h
        · cases h
        · rename_i ho
          rw [if_neg hd, if_neg ho]
          exact ih _ h
    | some i =>
      have hij : i ≠ j := fun e => hn _ List.mem_cons_self ((h2 j).2 (e ▸ hff))
      simp only [hff] at h ⊢
      cases hfi : fs[i]? with
      | none => simp [hfi] at h
      | some f =>
        cases hWi : Ws[i]? with
        | none => simp [hfi, hWi] at h
        | some W =>
          have : (Ws.set j A)[i]? = some W := by rw [List.getElem?_set_ne (Ne.symm hij)]; exact hWi
          simp only [hfi, hWi, this] at h ⊢
          cases hv : f.2 v W <;> rw [hv] at h <;> simp only at h ⊢ <;> first | cases h; done | skip
          rw [List.set_comm _ _ (Ne.symm hij)]
          exact ih _ h

theorem struct_insert {j : Nat} {k : Nat × Nat} {w : JVal} {f : Bytes × (JVal → Val → R Val)} {W W1 W2 : Val} {r : List ((Nat × Nat) × JVal)} (hk : KeySelects x src o (fs.map (·.1)) k j) (hf : fs[j]? = some f) (hfw : f.2 w W = .ok W2) :
    ∀ (l : List ((Nat × Nat) × JVal)) (Ws Y : List Val), WfM src (l ++ (k, w) :: r) → (∀ m ∈ l ++ r, ¬ KeySelects x src o (fs.map (·.1)) m.1 j) → Ws[j]? = some W →
    structV x src o fs (l ++ r) (Ws.set j W1) = .ok Y → structV x src o fs (l ++ (k, w) :: r) Ws = .ok (Y.set j W2)
  | [], Ws, Y, hw, hn, hW, h => by
    obtain ⟨name, h1, h2, -⟩ := key_fun x o (fs.map (·.1)) (k := k) hw.1
    have := struct_set (j := j) (A := W2) _ _ _ hw.2.2 hn h
    rw [List.set_set] at this
    simp only [List.nil_append, structV, h1, (h2 j).1 hk, hf, hW, hfw]
    exact this
  | ((a, z), v) :: l, Ws, Y, hw, hn, hW, h => by
    obtain ⟨name, h1, h2, -⟩ := key_fun x o (fs.map (·.1)) (k := (a, z)) hw.1
    have ih := fun Ws hW h => struct_insert (W1 := W1) hk hf hfw l Ws Y hw.2.2 (fun m hm => hn m (List.mem_cons_of_mem _ hm)) hW h
    simp only [List.cons_append, structV, h1] at h ⊢
    cases hff : findField x o (fs.map (·.1)).zipIdx name with
    | none =>
      simp only [hff] at h ⊢
      split at h
      · cases h
      · rename_i hd
        split at h
        · cases h
        · rename_i ho
          rw [if_neg hd, if_neg ho]
          exact ih _ hW h
    | some i =>
      have hij : i ≠ j := fun e => hn _ List.mem_cons_self ((h2 j).2 (e ▸ hff))
      simp only [hff] at h ⊢
      cases hfi : fs[i]? with
      | none => simp [hfi] at h
      | some g =>
        cases hWi : Ws[i]? with
        | none => simp [hfi, List.getElem?_set_ne (Ne.symm hij), hWi] at h
        | some Wi =>
          simp only [hfi, List.getElem?_set_ne (Ne.symm hij), hWi] at h ⊢
          cases hv : g.2 v Wi <;> rw [hv] at h <;> simp only at h ⊢ <;> first | cases h; done | skip
          rw [List.set_comm _ _ (Ne.symm hij)] at h
          exact ih _ (by rw [List.getElem?_set_ne hij]; exact hW) h

theorem struct_skip {k : Nat × Nat} {w : JVal} {r : List ((Nat × Nat) × JVal)} (hk : KeyUnknown x src o (fs.map (·.1)) k) (hd : ¬ o.disallowUnknownFields = true) (ho : ¬ hasObj w = true) :
    ∀ (l : List ((Nat × Nat) × JVal)) (Ws Y : List Val), WfM src (l ++ (k, w) :: r) → structV x src o fs (l ++ r) Ws = .ok Y → structV x src o fs (l ++ (k, w) :: r) Ws = .ok Y
  | [], Ws, Y, hw, h => by
    obtain ⟨name, h1, -, h2⟩ := key_fun x o (fs.map (·.1)) (k := k) hw.1
    simp only [List.nil_append, structV, h1, h2.1 hk, if_neg hd, if_neg ho]
    exact h
  | ((a, z), v) :: l, Ws, Y, hw, h => by
    have ih := fun Ws h => struct_skip hk hd ho l Ws Y hw.2.2 h
    obtain ⟨name, h1, -⟩ := key_fun x o (fs.map (·.1)) (k := (a, z)) hw.1
    simp only [List.cons_append, structV, h1] at h ⊢
    cases hff : findField x o (fs.map (·.1)).zipIdx name with
    | none =>
      simp only [hff] at h ⊢
      split at h
      · cases h
      · rename_i hd
        split at h
        · cases h
        · rename_i ho
          rw [if_neg hd, if_neg ho]
          exact ih _ h
    | some i =>
      simp only [hff] at h ⊢
      cases hfi : fs[i]? with
      | none => simp [hfi] at h
      | some g =>
        cases hWi : Ws[i]? with
        | none => simp [hfi, hWi] at h
        | some Wi =>
          simp only [hfi, hWi] at h ⊢
          cases hv : g.2 v Wi <;> rw [hv] at h <;> simp only at h ⊢ <;> first | cases h; done | skip
          exact ih _ h

end

theorem struct_re {x : Ext} {src src' : Bytes} {o : Options} {fs fs' : List (Bytes × (JVal → Val → R Val))} (hn : fs.map (·.1) = fs'.map (·.1)) {T : Nat → Val → Prop} :
    ∀ (ms ms' : List ((Nat × Nat) × JVal)) (Ws Ws1 : List Val), ReorderedM src src' ms ms' → WfM src ms → WfM src' ms' →
    (∀ (a b : Nat) m m' j, ms[a]? = some m → ms[b]? = some m' → KeySelects x src o (fs.map (·.1)) m.1 j → KeySelects x src o (fs.map (·.1)) m'.1 j → a = b) →
    (∀ (j : Nat) W, Ws[j]? = some W → T j W) →
    (∀ m ∈ ms, ∀ (j : Nat) f f' v', KeySelects x src o (fs.map (·.1)) m.1 j → fs[j]? = some f → fs'[j]? = some f' → Wf src m.2 → Wf src' v' → Reordered src src' m.2 v' →
      ∀ W W1, T j W → f.2 m.2 W = .ok W1 → T j W1 ∧ ∃ W1', f'.2 v' W = .ok W1' ∧ GoEq W1 W1') →
    structV x src o fs ms Ws = .ok Ws1 → ∃ Ws1', structV x src' o fs' ms' Ws = .ok Ws1' ∧ GoL Ws1 Ws1'
  | [], ms', Ws, Ws1, hr, _, _, _, _, _, h => by cases hr; cases h; exact ⟨_, rfl, goL_refl _⟩
  | ((a, z), v) :: ms, ms', Ws, Ws1, hr, hw, hw', hd, hT, hf, h => by
    obtain ⟨l, k, w, r, rfl, hi, h2, h3⟩ := hr
    obtain ⟨name, e1, e2, e3⟩ := key_fun x o (fs.map (·.1)) (k := (a, z)) hw.1
    obtain ⟨w1, w2, w3⟩ := wfM_cut hw'
    have hsel : ∀ {k k' : Nat × Nat}, inner src k.1 k.2 = inner src' k'.1 k'.2 → ∀ j, KeySelects x src o (fs.map (·.1)) k j ↔ KeySelects x src' o (fs'.map (·.1)) k' j := by
      intro k k' hk j
      simp only [KeySelects, hk, hn]
    have hunk : KeyUnknown x src o (fs.map (·.1)) (a, z) ↔ KeyUnknown x src' o (fs'.map (·.1)) k := by
      simp only [KeyUnknown, hi, hn]
    have ih := fun Ws hT h => struct_re hn ms (l ++ r) Ws Ws1 h3 hw.2.2 w3
      (fun a b m m' j ha hb hs hs' => by have := hd (a + 1) (b + 1) m m' j (by simpa using ha) (by simpa using hb) hs hs'; omega) hT
      (fun m hm => hf m (List.mem_cons_of_mem _ hm)) h
    simp only [structV, e1] at h
    cases hff : findField x o (fs.map (·.1)).zipIdx name with
    | none =>
      simp only [hff] at h
      split at h
      · cases h
      · rename_i hdis
        split at h
        · cases h
        · rename_i hob
          obtain ⟨Y, g1, g2⟩ := ih Ws hT h
          exact ⟨Y, struct_skip (hunk.1 (e3.2 hff)) hdis (by rw [← re_hasObj _ _ h2]; exact hob) l Ws Y hw' g1, g2⟩
    | some j =>
      simp only [hff] at h
      have hs : KeySelects x src o (fs.map (·.1)) (a, z) j := (e2 j).2 hff
      cases hfj : fs[j]? with
      | none => simp [hfj] at h
      | some f =>
        cases hWj : Ws[j]? with
        | none => simp [hfj, hWj] at h
        | some W =>
          simp only [hfj, hWj] at h
          cases hv : f.2 v W <;> rw [hv] at h <;> simp only at h <;> first | cases h; done | skip
          rename_i W1
          obtain ⟨f', hf'⟩ : ∃ f', fs'[j]? = some f' := by
            have hl : fs.length = fs'.length := by have := congrArg List.length hn; simpa using this
            have := (List.getElem?_eq_some_iff.1 hfj).1
            exact ⟨_, List.getElem?_eq_getElem (hl ▸ this)⟩
          obtain ⟨t1, W1', q1, q2⟩ := hf _ List.mem_cons_self j f f' w hs hfj hf' hw.2.1 w2 h2 W W1 (hT j W hWj) hv
          have hnone : ∀ m ∈ ms, ¬ KeySelects x src o (fs.map (·.1)) m.1 j := by
            intro m hm hc
            obtain ⟨i, hi⟩ := mem_get hm
            have := hd 0 (i + 1) _ m j rfl (by simpa using hi) hs hc
            omega
          have hnone' : ∀ m ∈ l ++ r, ¬ KeySelects x src' o (fs'.map (·.1)) m.1 j := by
            intro m hm hc
            obtain ⟨m0, g0, g1, -⟩ := reM_back h3 m hm
            exact hnone m0 g0 ((hsel g1 j).2 hc)
          obtain ⟨Y, g1, g2⟩ := ih (Ws.set j W1) (by
            intro i A hA
            rw [List.getElem?_set] at hA
            split at hA
            · rename_i hij; subst hij
              split at hA
              · cases hA; exact t1
              · cases hA
            · exact hT i A hA) h
          refine ⟨_, struct_insert ((hsel hi j).1 hs) hf' q1 l Ws Y hw' hnone' hWj g1, goL_set g2 ?_ q2⟩
          rw [structV_keep hw.2.2 (.inl h) hnone, List.getElem?_set_self (List.getElem?_eq_some_iff.1 hWj).1]

/-! ## Maps -/

section
variable {x : Ext} {src : Bytes} {f : JVal → Val → R Val} {k : KeyTy} {z : Val} {fresh : Bool}

theorem ext_assign {es es' : List (Key × Val)} (h : SameM es es') (K : Key) (A : Val) : SameM (assignV K A es) (assignV K A es') := fun L => by rw [lookup_assign, lookup_assign, h L]

theorem map_ext : ∀ (ms : List ((Nat × Nat) × JVal)) (es es' Y : List (Key × Val)), SameM es es' → mapV x src f k z fresh ms es = .ok Y → ∃ Y', mapV x src f k z fresh ms es' = .ok Y' ∧ SameM Y Y'
  | [], es, es', Y, he, h => by cases h; exact ⟨_, rfl, he⟩
  | ((a, b), v) :: ms, es, es', Y, he, h => by
    simp only [mapV] at h ⊢
    cases hk : (Model.slice src (a + 1) (b - 1)).bind fun key => k.key x key with
    | none => simp [hk] at h
    | some q =>
      cases q with
      | error er => simp [hk] at h
      | ok K =>
        simp only [hk] at h ⊢
        rw [← he K]
        cases hv : f v (if fresh = true then z else (lookupV K es).getD z) <;> rw [hv] at h <;> simp only at h ⊢ <;> first | cases h; done | skip
        exact map_ext ms _ _ Y (ext_assign he _ _) h

theorem assign_comm {K L : Key} (h : K.same L = false) (A B : Val) (es : List (Key × Val)) : SameM (assignV K A (assignV L B es)) (assignV L B (assignV K A es)) := by
  intro M
  simp only [lookup_assign]
  by_cases h1 : K.same M = true
  · by_cases h2 : L.same M = true
    · have := same_trans h1 (same_symm h2)
      rw [h] at this; cases this
    · simp [h1, h2]
  · simp [h1]

theorem ext_symm {es es' : List (Key × Val)} (h : SameM es es') : SameM es' es := fun K => (h K).symm
theorem ext_trans {es es' es'' : List (Key × Val)} (h : SameM es es') (h' : SameM es' es'') : SameM es es'' := fun K => (h K).trans (h' K)

theorem map_assign {K : Key} {A : Val} : ∀ (ms : List ((Nat × Nat) × JVal)) (es Y : List (Key × Val)), (∀ m ∈ ms, ∀ K', keyAt x src k m.1 = some (.ok K') → K'.same K = false) →
    mapV x src f k z fresh ms es = .ok Y → ∃ Y', mapV x src f k z fresh ms (assignV K A es) = .ok Y' ∧ SameM Y' (assignV K A Y)
  | [], es, Y, _, h => by cases h; exact ⟨_, rfl, fun _ => rfl⟩
  | ((a, b), v) :: ms, es, Y, hn, h => by
    simp only [mapV] at h ⊢
    have hk0 := hn _ List.mem_cons_self
    unfold keyAt at hk0
    simp only at hk0
    cases hk : (Model.slice src (a + 1) (b - 1)).bind fun key => k.key x key with
    | none => simp [hk] at h
    | some q =>
      cases q with
      | error er => simp [hk] at h
      | ok L =>
        have hLK := hk0 L hk
        have hKL : K.same L = false := by
          cases hc : K.same L with
          | false => rfl
          | true => rw [same_symm hc] at hLK; cases hLK
        simp only [hk] at h ⊢
        rw [show lookupV L (assignV K A es) = lookupV L es by rw [lookup_assign, if_neg (by simp [hKL])]]
        cases hv : f v (if fresh = true then z else (lookupV L es).getD z) <;> rw [hv] at h <;> simp only at h ⊢ <;> first | cases h; done | skip
        rename_i W1
        obtain ⟨Y1, g1, g2⟩ := map_assign ms _ Y (fun m hm => hn m (List.mem_cons_of_mem _ hm)) h
        obtain ⟨Y2, g3, g4⟩ := map_ext ms _ _ Y1 (assign_comm hKL A W1 es) g1
        exact ⟨Y2, g3, ext_trans (ext_symm g4) g2⟩

theorem map_insert {K : Key} {kk : Nat × Nat} {w : JVal} {W1 W2 : Val} {r : List ((Nat × Nat) × JVal)} (hk : keyAt x src k kk = some (.ok K)) :
    ∀ (l : List ((Nat × Nat) × JVal)) (es Y : List (Key × Val)), (∀ m ∈ l ++ r, ∀ K', keyAt x src k m.1 = some (.ok K') → K'.same K = false) → f w (if fresh = true then z else (lookupV K es).getD z) = .ok W2 →
    mapV x src f k z fresh (l ++ r) (assignV K W1 es) = .ok Y → ∃ Y', mapV x src f k z fresh (l ++ (kk, w) :: r) es = .ok Y' ∧ SameM Y' (assignV K W2 Y)
  | [], es, Y, hn, hv, h => by
    obtain ⟨Y1, g1, g2⟩ := map_assign (K := K) (A := W2) _ _ Y hn h
    obtain ⟨Y2, g3, g4⟩ := map_ext _ _ (assignV K W2 es) Y1 (fun L => by simp only [lookup_assign]; split <;> rfl) g1
    refine ⟨Y2, ?_, ext_trans (ext_symm g4) g2⟩
    unfold keyAt at hk
    simp only [List.nil_append, mapV, hk, hv]
    exact g3
  | ((a, b), v) :: l, es, Y, hn, hv, h => by
    simp only [List.cons_append, mapV] at h ⊢
    have hk0 := hn _ List.mem_cons_self
    unfold keyAt at hk0
    simp only at hk0
    cases hk1 : (Model.slice src (a + 1) (b - 1)).bind fun key => k.key x key with
    | none => simp [hk1] at h
    | some q =>
      cases q with
      | error er => simp [hk1] at h
      | ok L =>
        have hLK := hk0 L hk1
        have hKL : K.same L = false := by
          cases hc : K.same L with
          | false => rfl
          | true => rw [same_symm hc] at hLK; cases hLK
        simp only [hk1] at h ⊢
        rw [show lookupV L (assignV K W1 es) = lookupV L es by rw [lookup_assign, if_neg (by simp [hKL])]] at h
        cases hv1 : f v (if fresh = true then z else (lookupV L es).getD z) <;> rw [hv1] at h <;> simp only at h ⊢ <;> first | cases h; done | skip
        rename_i X
        obtain ⟨Y1, g1, g2⟩ := map_ext _ _ _ Y (ext_symm (assign_comm hKL W1 X es)) h
        obtain ⟨Y2, g3, g4⟩ := map_insert hk l (assignV L X es) Y1 (fun m hm => hn m (List.mem_cons_of_mem _ hm)) (by rw [show lookupV K (assignV L X es) = lookupV K es by rw [lookup_assign, if_neg (by simp [hLK])]]; exact hv) g1
        exact ⟨Y2, g3, ext_trans g4 (ext_assign (ext_symm g2) _ _)⟩

end

theorem map_re {x : Ext} {src src' : Bytes} {f f' : JVal → Val → R Val} {k : KeyTy} {z : Val} {fresh : Bool} {T : Val → Prop} (hz : T z) :
    ∀ (ms ms' : List ((Nat × Nat) × JVal)) (es es1 : List (Key × Val)), ReorderedM src src' ms ms' → WfM src ms → WfM src' ms' →
    (∀ (a b : Nat) mm mm' K K', ms[a]? = some mm → ms[b]? = some mm' → keyAt x src k mm.1 = some (.ok K) → keyAt x src k mm'.1 = some (.ok K') → K'.same K = true → a = b) →
    (∀ K W, lookupV K es = some W → T W) →
    (∀ m ∈ ms, ∀ v', Wf src m.2 → Wf src' v' → Reordered src src' m.2 v' → ∀ W W1, T W → f m.2 W = .ok W1 → T W1 ∧ ∃ W1', f' v' W = .ok W1' ∧ GoEq W1 W1') →
    mapV x src f k z fresh ms es = .ok es1 → ∃ es1', mapV x src' f' k z fresh ms' es = .ok es1' ∧ GoM es1 es1'
  | [], ms', es, es1, hr, _, _, _, _, _, h => by cases hr; cases h; exact ⟨_, rfl, goM_of_ext fun _ => rfl⟩
  | ((a, b), v) :: ms, ms', es, es1, hr, hw, hw', hd, hT, hf, h => by
    obtain ⟨l, kk, w, r, rfl, hi, h2, h3⟩ := hr
    obtain ⟨w1, w2, w3⟩ := wfM_cut hw'
    have hkey : ∀ {p q : Nat × Nat}, WfStr src p.1 p.2 → WfStr src' q.1 q.2 → inner src p.1 p.2 = inner src' q.1 q.2 → keyAt x src k p = keyAt x src' k q := by
      intro p q hp hq hpq
      unfold keyAt
      rw [Doc.slice_inner hp, Doc.slice_inner hq, hpq]
    have ih := fun es hT h => map_re (fresh := fresh) hz ms (l ++ r) es es1 h3 hw.2.2 w3
      (fun a b m m' K K' ha hb hs hs' hss => by have := hd (a + 1) (b + 1) m m' K K' (by simpa using ha) (by simpa using hb) hs hs' hss; omega) hT
      (fun m hm => hf m (List.mem_cons_of_mem _ hm)) h
    simp only [mapV] at h
    cases hk : (Model.slice src (a + 1) (b - 1)).bind fun key => k.key x key with
    | none => simp [hk] at h
    | some q =>
      cases q with
      | error er => simp [hk] at h
      | ok K =>
        have hK : keyAt x src k (a, b) = some (.ok K) := hk
        have hK' : keyAt x src' k kk = some (.ok K) := by rw [← hkey hw.1 w1 hi]; exact hK
        simp only [hk] at h
        cases hv : f v (if fresh = true then z else (lookupV K es).getD z) <;> rw [hv] at h <;> simp only at h <;> first | cases h; done | skip
        rename_i W1
        have hTo : T (if fresh = true then z else (lookupV K es).getD z) := by
          split
          · exact hz
          · cases hl : lookupV K es with
            | none => exact hz
            | some W => exact hT K W hl
        obtain ⟨t1, W2, q1, q2⟩ := hf _ List.mem_cons_self w hw.2.1 w2 h2 _ W1 hTo hv
        have hnone : ∀ m ∈ ms, ∀ K', keyAt x src k m.1 = some (.ok K') → K'.same K = false := by
          intro m hm K' hc
          obtain ⟨i, hi⟩ := mem_get hm
          cases hs : K'.same K with
          | false => rfl
          | true =>
            have := hd 0 (i + 1) _ m K K' rfl (by simpa using hi) hK hc hs
            omega
        have hnone' : ∀ m ∈ l ++ r, ∀ K', keyAt x src' k m.1 = some (.ok K') → K'.same K = false := by
          intro m hm K' hc
          obtain ⟨m0, g0, g1, -⟩ := reM_back h3 m hm
          exact hnone m0 g0 K' (by rw [hkey (wfM_mem hw.2.2 m0 g0).1 (wfM_mem w3 m hm).1 g1]; exact hc)
        obtain ⟨Y, g1, g2⟩ := ih (assignV K W1 es) (by
          intro L W hL
          rw [lookup_assign] at hL
          split at hL
          · cases hL; exact t1
          · exact hT L W hL) h
        obtain ⟨Y', g3, g4⟩ := map_insert hK' l es Y hnone' q1 g1
        refine ⟨Y', g3, ?_⟩
        have hL1 : ∀ L, K.same L = true → lookupV L es1 = some W1 := by
          intro L hL
          rw [← lookupV_same hL, mapV_keep (.inl h) hnone, lookup_assign, if_pos (Mem.same_refl K)]
        constructor
        · intro L
          rw [g4 L, lookup_assign]
          split
          · rename_i hL; rw [hL1 L hL]; rfl
          · exact g2.1 L
        · intro L A B hA hB
          rw [g4 L, lookup_assign] at hB
          split at hB
          · rename_i hL; rw [hL1 L hL] at hA; cases hA; cases hB; exact q2
          · exact g2.2 L A B hA hB

/-! ## `any` -/

theorem last_member {pf : Bytes → Except Nat Flt} {src : Bytes} {key : Bytes} {A : AnyVal} : ∀ {ms : List ((Nat × Nat) × JVal)}, LastMember pf src ms key A →
    ∃ k ∈ ms, Denotes (inner src k.1.1 k.1.2) key ∧ AnyTree pf src k.2 A
  | k :: ms, h => by
    rcases h with h | ⟨h, -, h2⟩
    · obtain ⟨k', h1, h2⟩ := last_member h
      exact ⟨k', List.mem_cons_of_mem _ h1, h2⟩
    · exact ⟨k, List.mem_cons_self, h, h2⟩

theorem noRepL_mem {src : Bytes} : ∀ {vs : List JVal}, NoRepeatsL src vs → ∀ v ∈ vs, NoRepeats src v
  | v :: vs, h, w, hw => by
    rcases List.mem_cons.1 hw with hw | hw
    · rw [hw]; exact h.1
    · exact noRepL_mem h.2 w hw

theorem noRepM_mem {src : Bytes} : ∀ {ms : List ((Nat × Nat) × JVal)}, NoRepeatsM src ms → ∀ m ∈ ms, NoRepeats src m.2
  | m :: ms, h, w, hw => by
    rcases List.mem_cons.1 hw with hw | hw
    · rw [hw]; exact h.1
    · exact noRepM_mem h.2 w hw

mutual
theorem any_re {pf : Bytes → Except Nat Flt} {src src' : Bytes} : ∀ (v v' : JVal) (A B : AnyVal), Reordered src src' v v' → NoRepeats src v → AnyTree pf src v A → AnyTree pf src' v' B → SameAny A B
  | .null _ _, v', A, B, hr, _, h, h' => by obtain ⟨_, _, rfl⟩ := hr; cases h; exact h'
  | .bool _ _ _, v', A, B, hr, _, h, h' => by obtain ⟨_, _, rfl⟩ := hr; cases h; exact h'
  | .num _ i e, v', A, B, hr, _, ⟨f, h1, h2⟩, h' => by
    obtain ⟨_, _, rfl, ht⟩ := hr
    obtain ⟨f', h3, h4⟩ := h'
    subst h2 h4; rw [ht, h3] at h1; cases h1; rfl
  | .str i e, v', A, B, hr, _, ⟨f, h1, h2⟩, h' => by
    obtain ⟨_, _, rfl, ht⟩ := hr
    obtain ⟨f', h3, h4⟩ := h'
    subst h2 h4
    rw [ht] at h1
    exact ⟨f', rfl, Unescape.denotes_fun h3 h1⟩
  | .arr _ vs _, v', A, B, hr, hn, ⟨as, h1, h2⟩, h' => by
    obtain ⟨_, vs', _, rfl, hr⟩ := hr
    obtain ⟨bs, h3, h4⟩ := h'
    subst h1 h3; exact ⟨bs, rfl, anyL_re vs vs' as bs hr hn h2 h4⟩
  | .obj _ ms _, v', A, B, hr, hn, ⟨m, h1, h2, h3, h4⟩, h' => by
    obtain ⟨_, ms', _, rfl, hr⟩ := hr
    obtain ⟨m', g1, g2, g3, g4⟩ := h'
    subst h1 g1
    refine ⟨m', rfl, Same.sameAnyE_of fun e he => ?_, fun e' he' => ?_⟩
    · obtain ⟨k, hk, hd, ha⟩ := last_member (h4 e he)
      obtain ⟨k', hk', hi', -⟩ := reM_forth hr k hk
      obtain ⟨e', he', hd'⟩ := g3 k' hk'
      rw [← hi'] at hd'
      have hb := Unescape.denotes_fun hd' hd
      obtain ⟨k2, hk2, hd2, ha2⟩ := last_member (g4 e' he')
      obtain ⟨k3, hk3, hi3, hr3⟩ := reM_back hr k2 hk2
      rw [hb, ← hi3] at hd2
      obtain ⟨a, ha'⟩ := mem_get hk
      obtain ⟨b, hb'⟩ := mem_get hk3
      have := hn.1 a b k k3 _ ha' hb' hd hd2
      subst this
      cases ha'.symm.trans hb'
      exact ⟨e', he', hb, anyM_re ms hn.2 k hk k2.2 _ _ hr3 ha ha2⟩
    · obtain ⟨k', hk', hd'⟩ := Same.last_mem (g4 e' he')
      obtain ⟨k, hk, hi, -⟩ := reM_back hr k' hk'
      rw [← hi] at hd'
      obtain ⟨e, he, hd⟩ := h3 k hk
      exact ⟨e, he, Unescape.denotes_fun hd hd'⟩
theorem anyL_re {pf : Bytes → Except Nat Flt} {src src' : Bytes} : ∀ (vs vs' : List JVal) (As Bs : List AnyVal), ReorderedL src src' vs vs' → NoRepeatsL src vs → AnyElems pf src vs As → AnyElems pf src' vs' Bs → SameAnyL As Bs
  | [], vs', As, Bs, hr, _, h, h' => by cases hr; cases h; exact h'
  | v :: vs, vs', As, Bs, hr, hn, ⟨a, as, h1, h2, h3⟩, h' => by
    obtain ⟨w, ws, rfl, r1, r2⟩ := hr
    obtain ⟨b, bs, g1, g2, g3⟩ := h'
    subst h1 g1
    exact ⟨b, bs, rfl, any_re v w a b r1 hn.1 h2 g2, anyL_re vs ws as bs r2 hn.2 h3 g3⟩
theorem anyM_re {pf : Bytes → Except Nat Flt} {src src' : Bytes} : ∀ (ms : List ((Nat × Nat) × JVal)), NoRepeatsM src ms → ∀ m ∈ ms, ∀ w A B, Reordered src src' m.2 w → AnyTree pf src m.2 A → AnyTree pf src' w B → SameAny A B
  | [], _, _, hm, _, _, _, _, _, _ => by cases hm
  | (k, v) :: ms, hn, m, hm, w, A, B, hr, h, h' => by
    rcases List.mem_cons.1 hm with hm | hm
    · rw [hm] at hr h; exact any_re v w A B hr hn.1 h h'
    · exact anyM_re ms hn.2 m hm w A B hr h h'
end

theorem numbersM_of {pf : Bytes → Except Nat Flt} {src : Bytes} : ∀ {ms : List ((Nat × Nat) × JVal)}, (∀ m ∈ ms, NumbersParse pf src m.2) → NumbersParseM pf src ms
  | [], _ => trivial
  | m :: ms, h => ⟨h m List.mem_cons_self, numbersM_of fun m' hm => h m' (List.mem_cons_of_mem _ hm)⟩

mutual
theorem numbers_re {pf : Bytes → Except Nat Flt} {src src' : Bytes} : ∀ (v v' : JVal), Reordered src src' v v' → NumbersParse pf src v → NumbersParse pf src' v'
  | .null _ _, v', hr, h => by obtain ⟨_, _, rfl⟩ := hr; trivial
  | .bool _ _ _, v', hr, h => by obtain ⟨_, _, rfl⟩ := hr; trivial
  | .num _ i e, v', hr, h => by
    obtain ⟨_, _, rfl, ht⟩ := hr
    obtain ⟨f, hf⟩ := h
    exact ⟨f, by rw [← ht]; exact hf⟩
  | .str i e, v', hr, h => by obtain ⟨_, _, rfl, ht⟩ := hr; trivial
  | .arr _ vs _, v', hr, h => by
    obtain ⟨_, vs', _, rfl, hr⟩ := hr
    exact numbersL_re vs vs' hr h
  | .obj _ ms _, v', hr, h => by
    obtain ⟨_, ms', _, rfl, hr⟩ := hr
    exact numbersM_of fun m' hm' => by
      obtain ⟨m, hm, -, h1⟩ := reM_back hr m' hm'
      exact numbersM_re ms h m hm _ h1
theorem numbersL_re {pf : Bytes → Except Nat Flt} {src src' : Bytes} : ∀ (vs vs' : List JVal), ReorderedL src src' vs vs' → NumbersParseL pf src vs → NumbersParseL pf src' vs'
  | [], vs', hr, h => by cases hr; trivial
  | v :: vs, vs', hr, h => by
    obtain ⟨w, ws, rfl, r1, r2⟩ := hr
    exact ⟨numbers_re v w r1 h.1, numbersL_re vs ws r2 h.2⟩
theorem numbersM_re {pf : Bytes → Except Nat Flt} {src src' : Bytes} : ∀ (ms : List ((Nat × Nat) × JVal)), NumbersParseM pf src ms → ∀ m ∈ ms, ∀ w, Reordered src src' m.2 w → NumbersParse pf src' w
  | [], _, _, hm, _, _ => by cases hm
  | (k, v) :: ms, h, m, hm, w, hr => by
    rcases List.mem_cons.1 hm with hm | hm
    · rw [hm] at hr; exact numbers_re v w hr h.1
    · exact numbersM_re ms h.2 m hm w hr
end

theorem parser_re {x : Ext} {src src' : Bytes} {v v' : JVal} (h : Reordered src src' v v') : anyParser x v = anyParser x v' := by
  cases v with
  | null => obtain ⟨_, _, rfl⟩ := h; rfl
  | bool => obtain ⟨_, _, rfl⟩ := h; rfl
  | num => obtain ⟨_, _, rfl, -⟩ := h; rfl
  | str => obtain ⟨_, _, rfl, -⟩ := h; rfl
  | arr => obtain ⟨_, _, _, rfl, -⟩ := h; rfl
  | obj => obtain ⟨_, _, _, rfl, -⟩ := h; rfl

/-! ## All types -/

theorem slice_re {f f' : JVal → Val → R Val} {src src' : Bytes} {T : Val → Prop} {z V V1 : Val} {c : Bool} {vs vs' : List JVal} (hV : SliceP T V) (hz : T z) (hr : ReorderedL src src' vs vs') (hw : WfL src vs) (hw' : WfL src' vs')
    (hf : ∀ v ∈ vs, ∀ v', Wf src v → Wf src' v' → Reordered src src' v v' → ∀ W W1, T W → f v W = .ok W1 → ∃ W1', f' v' W = .ok W1' ∧ GoEq W1 W1')
    (h : sliceV f z c vs V = .ok V1) : ∃ V1', sliceV f' z c vs' V = .ok V1' ∧ GoEq V1 V1' := by
  have hl := (reL_get hr).1
  unfold sliceV at h ⊢
  by_cases hn : vs = []
  · have hn' : vs' = [] := by subst hn; exact hr
    simp only [hn, hn', if_true] at h ⊢
    exact ⟨V1, h, go_refl _⟩
  · have hn' : ¬ vs' = [] := by intro hc; subst hc; exact hn (List.length_eq_zero_iff.1 hl)
    simp only [hn, hn', if_false, map_ok_iff] at h ⊢
    obtain ⟨es, h1, rfl⟩ := h
    have hT := prepSlice_P (c := c) (n := vs.length) hV hz
    obtain ⟨es', g1, g2⟩ := elems_re (T := T) (f' := f') vs vs' _ es hr hw hw' (fun W hW => hT W (List.mem_append_left _ hW)) (fun v hv => hf v (List.mem_of_mem_take hv)) h1
    refine ⟨_, ⟨es', by rw [← hl]; exact g1, rfl⟩, ?_⟩
    rw [← hl]
    exact .slice g2.1 g2.2 rfl (goL_refl _).2

theorem sliceOf_re {f f' : JVal → Val → R Val} {src src' : Bytes} {T : Val → Prop} {z V V1 : Val} {vs vs' : List JVal} (hV : SliceP T V) (hz : T z) (hr : ReorderedL src src' vs vs') (hw : WfL src vs) (hw' : WfL src' vs')
    (hf : ∀ v ∈ vs, ∀ v', Wf src v → Wf src' v' → Reordered src src' v v' → ∀ W W1, T W → f v W = .ok W1 → ∃ W1', f' v' W = .ok W1' ∧ GoEq W1 W1')
    (h : sliceOfV f z vs V = .ok V1) : ∃ V1', sliceOfV f' z vs' V = .ok V1' ∧ GoEq V1 V1' := by
  have hl := (reL_get hr).1
  unfold sliceOfV at h ⊢
  by_cases hn : vs = []
  · have hn' : vs' = [] := by subst hn; exact hr
    simp only [hn, hn', if_true] at h ⊢
    exact ⟨V1, h, go_refl _⟩
  · have hn' : ¬ vs' = [] := by intro hc; subst hc; exact hn (List.length_eq_zero_iff.1 hl)
    simp only [hn, hn', if_false, ← hl] at h ⊢
    split at h
    · rename_i hlt
      cases hr1 : elemsV f vs (List.replicate vs.length z) <;> rw [hr1] at h <;> simp only at h <;> first | cases h; done | skip
      rename_i es
      cases h
      obtain ⟨es', g1, g2⟩ := elems_re (T := T) (f' := f') vs vs' _ es hr hw hw' (fun W hW => List.eq_of_mem_replicate hW ▸ hz) (fun v hv => hf v (List.mem_of_mem_take hv)) hr1
      rw [if_pos hlt, g1]
      exact ⟨_, rfl, .slice g2.1 g2.2 rfl (goL_refl _).2⟩
    · rename_i hlt
      cases hr1 : elemsV f vs (((sliceParts V).1 ++ (sliceParts V).2).take vs.length) <;> rw [hr1] at h <;> simp only at h <;> first | cases h; done | skip
      rename_i es
      cases h
      obtain ⟨es', g1, g2⟩ := elems_re (T := T) (f' := f') vs vs' _ es hr hw hw' (fun W hW => sliceParts_P hV W (List.mem_of_mem_take hW)) (fun v hv => hf v (List.mem_of_mem_take hv)) hr1
      rw [if_neg hlt, g1]
      exact ⟨_, rfl, .slice g2.1 g2.2 rfl (goL_refl _).2⟩

theorem leaf_re {x : Ext} {src src' : Bytes} {ty : Ty} {v v' : JVal} {V W : Val} (hw : Wf src v) (hw' : Wf src' v') (hr : Reordered src src' v v') (h : leafV x src ty v V = .ok W) :
    ∃ W', leafV x src' ty v' V = .ok W' ∧ GoEq W W' := ⟨W, leafV_ok hw hw' hr h, go_refl W⟩

mutual
theorem dec_re {x : Ext} {src src' : Bytes} {o : Options} : ∀ (ty : Ty) {v v' : JVal} {V W : Val}, (∀ rt, JsonIn rt ty → Unordered x src src' rt) → Wf src v → Wf src' v' → Reordered src src' v v' → NoRepeats src v →
    Once x src o ty v → Keyed x src o ty v → HasTy ty V → decV x src (some o) ty v V = .ok W → ∃ W', decV x src' (some o) ty v' V = .ok W' ∧ GoEq W W'
  | .jsonU rt n impl, v, v', V, W, hx, hw, hw', hr, hn, h1, h2, hV, h => by
    refine ⟨W, ?_, go_refl W⟩
    simp only [decV, jsonV, innerOK_wf hw, innerOK_wf hw', slice_extent hw, slice_extent hw'] at h ⊢
    cases impl with
    | false => cases h
    | true =>
      obtain ⟨b, rfl, -⟩ := hV
      simp only at h ⊢
      rw [← hx rt rfl b v v' hw hw' hr]
      split at h
      · exact h
      · cases h
  | .textU rt n impl, v, v', V, W, hx, hw, hw', hr, hn, h1, h2, hV, h => by
    refine ⟨W, ?_, go_refl W⟩
    simp only [decV] at h ⊢
    rw [← wf_leaf hw hw' hr]
    exact act_ok h
  | .any, v, v', V, W, hx, hw, hw', hr, hn, h1, h2, hV, h => by
    by_cases hp : NumbersParse (anyParser x v) src v
    · obtain ⟨a, g1, g2⟩ := (Props.C17_inside (x := x) hw (some o) V).1 hp
      have hp' := numbers_re v v' hr hp
      rw [parser_re hr] at hp'
      obtain ⟨b, g3, g4⟩ := (Props.C17_inside (x := x) hw' (some o) V).1 hp'
      rw [← parser_re hr] at g4
      rw [g1] at h; cases h
      exact ⟨_, g3, .any (any_re v v' a b hr hn g2 g4)⟩
    · obtain ⟨e, g1, -⟩ := (Props.C17_inside (x := x) hw (some o) V).2 hp
      rw [g1] at h; cases h
  | .array0, v, v', V, W, hx, hw, hw', hr, hn, h1, h2, hV, h => by
    cases v with
    | arr i vs k => obtain ⟨_, _, _, rfl, -⟩ := hr; exact ⟨W, h, go_refl W⟩
    | null => obtain ⟨_, _, rfl⟩ := id hr; exact leaf_re hw hw' hr h
    | bool => obtain ⟨_, _, rfl⟩ := id hr; exact leaf_re hw hw' hr h
    | num => obtain ⟨_, _, rfl, -⟩ := id hr; exact leaf_re hw hw' hr h
    | str => obtain ⟨_, _, rfl, -⟩ := id hr; exact leaf_re hw hw' hr h
    | obj => obtain ⟨_, _, _, rfl, -⟩ := id hr; exact leaf_re hw hw' hr h
  | .array n e, v, v', V, W, hx, hw, hw', hr, hn, h1, h2, hV, h => by
    obtain ⟨es, rfl, hl, he⟩ := hV
    cases v with
    | arr i vs k =>
      obtain ⟨_, vs', _, rfl, hr⟩ := hr
      simp only [decV, map_ok_iff] at h ⊢
      obtain ⟨es', g, rfl⟩ := h
      obtain ⟨es1, g1, g2⟩ := elems_re (T := HasTy e) (f' := decV x src' (some o) e) vs vs' es es' hr hw.2.2.2.2 hw'.2.2.2.2 he (fun v hv v' hwv hwv' hrv W W1 hW hd => by
        rw [hl] at hv
        exact dec_re e hx hwv hwv' hrv (noRepL_mem hn v (List.mem_of_mem_take hv)) (h1 _ _ _ rfl v hv) (h2 _ _ _ rfl v hv) hW hd) g
      exact ⟨_, ⟨es1, g1, rfl⟩, .arr g2.1 g2.2⟩
    | null => obtain ⟨_, _, rfl⟩ := id hr; exact leaf_re hw hw' hr h
    | bool => obtain ⟨_, _, rfl⟩ := id hr; exact leaf_re hw hw' hr h
    | num => obtain ⟨_, _, rfl, -⟩ := id hr; exact leaf_re hw hw' hr h
    | str => obtain ⟨_, _, rfl, -⟩ := id hr; exact leaf_re hw hw' hr h
    | obj => obtain ⟨_, _, _, rfl, -⟩ := id hr; exact leaf_re hw hw' hr h
  | .slice e, v, v', V, W, hx, hw, hw', hr, hn, h1, h2, hV, h => by
    cases v with
    | arr i vs k =>
      obtain ⟨_, vs', _, rfl, hr⟩ := hr
      exact slice_re (T := HasTy e) (f' := decV x src' (some o) e) hV (zero_typed e) hr hw.2.2.2.2 hw'.2.2.2.2 (fun v hv v' hwv hwv' hrv W W1 hW hd =>
        dec_re e hx hwv hwv' hrv (noRepL_mem hn v hv) (h1 _ _ _ rfl v hv) (h2 _ _ _ rfl v hv) hW hd) h
    | null => obtain ⟨_, _, rfl⟩ := id hr; exact leaf_re hw hw' hr h
    | bool => obtain ⟨_, _, rfl⟩ := id hr; exact leaf_re hw hw' hr h
    | num => obtain ⟨_, _, rfl, -⟩ := id hr; exact leaf_re hw hw' hr h
    | str => obtain ⟨_, _, rfl, -⟩ := id hr; exact leaf_re hw hw' hr h
    | obj => obtain ⟨_, _, _, rfl, -⟩ := id hr; exact leaf_re hw hw' hr h
  | .sliceOf k, v, v', V, W, hx, hw, hw', hr, hn, h1, h2, hV, h => by
    cases v with
    | arr i vs kk =>
      obtain ⟨_, vs', _, rfl, hr⟩ := hr
      refine sliceOf_re (T := HasK k) (f' := fun v W => actV v.index (zeroS k) none W (elemAct x src' k v)) hV (zeroS_hasK k) hr hw.2.2.2.2 hw'.2.2.2.2 (fun v hv v' hwv hwv' hrv W W1 hW hd => ?_) h
      simp only [elem_scalar x (some o) k hwv, elem_scalar x (some o) k hwv'] at hd ⊢
      exact leaf_re hwv hwv' hrv hd
    | null => obtain ⟨_, _, rfl⟩ := id hr; exact leaf_re hw hw' hr h
    | bool => obtain ⟨_, _, rfl⟩ := id hr; exact leaf_re hw hw' hr h
    | num => obtain ⟨_, _, rfl, -⟩ := id hr; exact leaf_re hw hw' hr h
    | str => obtain ⟨_, _, rfl, -⟩ := id hr; exact leaf_re hw hw' hr h
    | obj => obtain ⟨_, _, _, rfl, -⟩ := id hr; exact leaf_re hw hw' hr h
  | .sliceES, v, v', V, W, hx, hw, hw', hr, hn, h1, h2, hV, h => by
    cases v with
    | arr i vs kk =>
      obtain ⟨_, vs', _, rfl, hr⟩ := hr
      refine ⟨W, ?_, go_refl W⟩
      simp only [decV, (reL_get hr).1] at h ⊢
      exact h
    | null => obtain ⟨_, _, rfl⟩ := id hr; exact leaf_re hw hw' hr h
    | bool => obtain ⟨_, _, rfl⟩ := id hr; exact leaf_re hw hw' hr h
    | num => obtain ⟨_, _, rfl, -⟩ := id hr; exact leaf_re hw hw' hr h
    | str => obtain ⟨_, _, rfl, -⟩ := id hr; exact leaf_re hw hw' hr h
    | obj => obtain ⟨_, _, _, rfl, -⟩ := id hr; exact leaf_re hw hw' hr h
  | .mapSS, v, v', V, W, hx, hw, hw', hr, hn, h1, h2, hV, h => by
    cases v with
    | obj i ms k =>
      obtain ⟨_, ms', _, rfl, hr⟩ := hr
      simp only [decV] at h ⊢
      cases hm : mapSSV x src ms [] with
      | none => rw [hm] at h; cases h
      | some q =>
        cases q with
        | error p => rw [hm] at h; cases h
        | ok es =>
          rw [hm] at h; cases h
          have hm1 := Means.mapSS_inv (o := some o) hw.2.2.2.2 hm
          obtain ⟨k1, k2⟩ := keys_apart (k := .str) hw.2.2.2.2 (fun m hm => by
            obtain ⟨s, hs⟩ := (wfM_mem hw.2.2.2.2 m hm).1.2.2
            exact ⟨.str ⟨s, false⟩, .str hs⟩) (h1 _ _ _ rfl)
          obtain ⟨es', g1, g2⟩ := map_re (T := fun _ => True) (f' := decV x src' (some o) (.scalar .str)) trivial ms ms' [] es hr hw.2.2.2.2 hw'.2.2.2.2 k2 (fun _ _ _ => trivial)
            (fun m hm v' hwv hwv' hrv W W1 _ hd => ⟨trivial, leaf_re hwv hwv' hrv hd⟩) hm1
          rw [Means.mapSS_eq hw'.2.2.2.2 g1]
          exact ⟨_, rfl, .map g2.1 g2.2⟩
    | null => obtain ⟨_, _, rfl⟩ := id hr; exact leaf_re hw hw' hr h
    | bool => obtain ⟨_, _, rfl⟩ := id hr; exact leaf_re hw hw' hr h
    | num => obtain ⟨_, _, rfl, -⟩ := id hr; exact leaf_re hw hw' hr h
    | str => obtain ⟨_, _, rfl, -⟩ := id hr; exact leaf_re hw hw' hr h
    | arr => obtain ⟨_, _, _, rfl, -⟩ := id hr; exact leaf_re hw hw' hr h
  | .map k e, v, v', V, W, hx, hw, hw', hr, hn, h1, h2, hV, h => by
    cases v with
    | obj i ms kk =>
      obtain ⟨_, ms', _, rfl, hr⟩ := hr
      simp only [decV] at h ⊢
      split at h
      · cases h
      · rename_i hne
        have hne' : ¬ (k = .other ∧ ms' ≠ []) := fun hc => hne ⟨hc.1, fun he => hc.2 ((reM_nil hr).1 he)⟩
        rw [if_neg hne']
        simp only [map_ok_iff] at h ⊢
        obtain ⟨m1, g, rfl⟩ := h
        have hm : ∀ a ∈ mapParts V, HasTy e a.2 := by
          rcases hV with rfl | ⟨es, rfl, h⟩
          · intro a ha; cases ha
          · exact h
        obtain ⟨h1a, h1b⟩ := h1 _ _ _ rfl
        have h2 := h2 _ _ _ rfl
        obtain ⟨k1, k2⟩ := keys_apart hw.2.2.2.2 (fun m hm => (h2 m hm).1) h1b
        obtain ⟨m2, g1, g2⟩ := map_re (T := HasTy e) (f' := decV x src' (some o) e) (zero_typed e) ms ms' _ m1 hr hw.2.2.2.2 hw'.2.2.2.2 k2 (fun K W hW => by
            have := lookupV_P (k := K) (P := HasTy e) (zero_typed (x := x) e) hm
            rw [hW] at this; exact this)
          (fun m hmm v' hwv hwv' hrv W W1 hW hd => ⟨by have := decV_keeps (x := x) (src := src) (o := some o) e (v := m.2) hW; rw [hd] at this; exact this,
            dec_re e hx hwv hwv' hrv (noRepM_mem hn.2 m hmm) (h1a m hmm) (h2 m hmm).2 hW hd⟩) g
        exact ⟨_, ⟨m2, g1, rfl⟩, .map g2.1 g2.2⟩
    | null => obtain ⟨_, _, rfl⟩ := id hr; exact leaf_re hw hw' hr h
    | bool => obtain ⟨_, _, rfl⟩ := id hr; exact leaf_re hw hw' hr h
    | num => obtain ⟨_, _, rfl, -⟩ := id hr; exact leaf_re hw hw' hr h
    | str => obtain ⟨_, _, rfl, -⟩ := id hr; exact leaf_re hw hw' hr h
    | arr => obtain ⟨_, _, _, rfl, -⟩ := id hr; exact leaf_re hw hw' hr h
  | .struct n fs, v, v', V, W, hx, hw, hw', hr, hn, h1, h2, hV, h => by
    obtain ⟨Ws, rfl, hW⟩ := hV
    cases v with
    | obj i ms k =>
      obtain ⟨_, ms', _, rfl, hr⟩ := hr
      simp only [decV] at h ⊢
      split at h
      · rename_i hnil
        rw [if_pos ((reM_nil hr).1 hnil)]
        exact ⟨W, h, go_refl W⟩
      · rename_i hnil
        rw [if_neg fun hc => hnil ((reM_nil hr).2 hc)]
        simp only [map_ok_iff] at h ⊢
        obtain ⟨Ws1, g, rfl⟩ := h
        obtain ⟨h1a, h1b⟩ := h1 _ _ _ rfl
        have h2 := h2 _ _ _ rfl
        obtain ⟨Ws2, g1, g2⟩ := struct_re (fs := decVF x src (some o) fs) (fs' := decVF x src' (some o) fs) (T := fun j W => ∀ f, fs[j]? = some f → HasTy f.2.2 W) (by rw [Val.decVF_names, Val.decVF_names])
          ms ms' Ws Ws1 hr hw.2.2.2.2 hw'.2.2.2.2 (by rw [Val.decVF_names]; exact h1b) (by
            intro j W0 hW0 f hf
            obtain ⟨W', e1, e2⟩ := hasTyF_get hW hf
            rw [hW0] at e1; cases e1; exact e2) (by
            intro m hm j f f' v' hs hf hf' hwv hwv' hrv W0 W1 hW0 hd
            rw [Val.decVF_names] at hs
            rw [Val.decVF_get] at hf hf'
            cases hfj : fs[j]? with
            | none => rw [hfj] at hf; cases hf
            | some q =>
              rw [hfj] at hf hf'
              cases hf; cases hf'
              have ht := hW0 q hfj
              refine ⟨fun f hf => ?_, decF_re fs hfj hx hwv hwv' hrv (noRepM_mem hn.2 m hm) (h1a m hm j _ hs (by rw [onceF_get, hfj]; rfl)) (h2 m hm j _ hs (by rw [keyedF_get, hfj]; rfl)) ht hd⟩
              cases hf
              have := decV_keeps (x := x) (src := src) (o := some o) q.2.2 (v := m.2) ht
              simp only at hd
              rw [hd] at this; exact this) g
        exact ⟨_, ⟨Ws2, g1, rfl⟩, .struct g2.1 g2.2⟩
    | null => obtain ⟨_, _, rfl⟩ := id hr; exact leaf_re hw hw' hr h
    | bool => obtain ⟨_, _, rfl⟩ := id hr; exact leaf_re hw hw' hr h
    | num => obtain ⟨_, _, rfl, -⟩ := id hr; exact leaf_re hw hw' hr h
    | str => obtain ⟨_, _, rfl, -⟩ := id hr; exact leaf_re hw hw' hr h
    | arr => obtain ⟨_, _, _, rfl, -⟩ := id hr; exact leaf_re hw hw' hr h
  | .emptyStruct, v, v', V, W, hx, hw, hw', hr, hn, h1, h2, hV, h => by
    cases v with
    | obj i ms k => cases h
    | null => obtain ⟨_, _, rfl⟩ := id hr; exact leaf_re hw hw' hr h
    | bool => obtain ⟨_, _, rfl⟩ := id hr; exact leaf_re hw hw' hr h
    | num => obtain ⟨_, _, rfl, -⟩ := id hr; exact leaf_re hw hw' hr h
    | str => obtain ⟨_, _, rfl, -⟩ := id hr; exact leaf_re hw hw' hr h
    | arr => obtain ⟨_, _, _, rfl, -⟩ := id hr; exact leaf_re hw hw' hr h
  | .ptr e, v, v', V, W, hx, hw, hw', hr, hn, h1, h2, hV, h => by
    by_cases hnull : ∃ i k, v = .null i k
    · obtain ⟨i, k, rfl⟩ := hnull
      obtain ⟨_, _, rfl⟩ := hr; exact ⟨W, h, go_refl W⟩
    · rw [dec_ptr fun i k hc => hnull ⟨i, k, hc⟩] at h
      rw [dec_ptr fun i k hc => hnull (re_null hr ⟨i, k, hc⟩)]
      simp only [map_ok_iff] at h ⊢
      obtain ⟨W1, g1, rfl⟩ := h
      obtain ⟨W2, g2, g3⟩ := dec_re e hx hw hw' hr hn h1 h2 (pointee_typed hV) g1
      exact ⟨_, ⟨W2, g2, rfl⟩, .ptr g3⟩
  | .number, v, v', V, W, hx, hw, hw', hr, hn, h1, h2, hV, h => leaf_re hw hw' hr h
  | .scalar k, v, v', V, W, hx, hw, hw', hr, hn, h1, h2, hV, h => leaf_re hw hw' hr h
  | .quoted k, v, v', V, W, hx, hw, hw', hr, hn, h1, h2, hV, h => leaf_re hw hw' hr h
theorem decF_re {x : Ext} {src src' : Bytes} {o : Options} : ∀ (fs : List (Bytes × Nat × Ty)) {j : Nat} {f : Bytes × Nat × Ty}, fs[j]? = some f → ∀ {v v' : JVal} {V W : Val},
    (∀ rt, JsonInF rt fs → Unordered x src src' rt) → Wf src v → Wf src' v' → Reordered src src' v v' → NoRepeats src v → Once x src o f.2.2 v → Keyed x src o f.2.2 v → HasTy f.2.2 V → decV x src (some o) f.2.2 v V = .ok W →
    ∃ W', decV x src' (some o) f.2.2 v' V = .ok W' ∧ GoEq W W'
  | [], j, f, hf, _, _, _, _, _, _, _, _, _, _, _, _, _ => by simp at hf
  | (_, _, t) :: fs, 0, f, hf, v, v', V, W, hx, hw, hw', hr, hn, h1, h2, hV, h => by
    simp only [List.getElem?_cons_zero, Option.some.injEq] at hf
    subst hf
    exact dec_re t (fun rt h => hx rt (.inl h)) hw hw' hr hn h1 h2 hV h
  | _ :: fs, j + 1, f, hf, v, v', V, W, hx, hw, hw', hr, hn, h1, h2, hV, h => by
    simp only [List.getElem?_cons_succ] at hf
    exact decF_re fs hf (fun rt h => hx rt (.inr h)) hw hw' hr hn h1 h2 hV h
end

theorem top_re {x : Ext} {src src' : Bytes} {o : Options} : ∀ (ty : Ty) {v v' : JVal} {V W : Val}, (∀ rt, JsonIn rt ty → Unordered x src src' rt) → Wf src v → Wf src' v' → Reordered src src' v v' → NoRepeats src v →
    Once x src o ty v → Keyed x src o ty v → HasTy ty V → decTopV x src (some o) ty v V = .ok W → ∃ W', decTopV x src' (some o) ty v' V = .ok W' ∧ GoEq W W'
  | .ptr e, v, v', V, W, hx, hw, hw', hr, hn, h1, h2, hV, h => by
    by_cases hnull : ∃ i k, v = .null i k
    · obtain ⟨i, k, rfl⟩ := hnull
      obtain ⟨_, _, rfl⟩ := hr; exact ⟨W, h, go_refl W⟩
    · have hnull' : ¬ ∃ i k, v' = .null i k := fun h => hnull (re_null hr h)
      rw [Drop.top_ptr (fun i k hc => hnull ⟨i, k, hc⟩), tokOK_wf hw, if_neg (by simp)] at h
      rw [Drop.top_ptr (fun i k hc => hnull' ⟨i, k, hc⟩), tokOK_wf hw', if_neg (by simp)]
      split at h
      · cases h
      · rename_i hs
        rw [if_neg hs]
        simp only [map_ok_iff] at h ⊢
        obtain ⟨W1, g1, rfl⟩ := h
        obtain ⟨W2, g2, g3⟩ := top_re e hx hw hw' hr hn h1 h2 (zero_typed e) g1
        exact ⟨_, ⟨W2, g2, rfl⟩, .ptr g3⟩
  | .emptyStruct, v, v', V, W, hx, hw, hw', hr, hn, h1, h2, hV, h => by
    cases v with
    | obj i ms k => obtain ⟨_, _, _, rfl, -⟩ := hr; exact ⟨W, h, go_refl W⟩
    | null => obtain ⟨_, _, rfl⟩ := id hr; exact leaf_re (x := x) (ty := .emptyStruct) hw hw' hr h
    | bool => obtain ⟨_, _, rfl⟩ := id hr; exact leaf_re (x := x) (ty := .emptyStruct) hw hw' hr h
    | num => obtain ⟨_, _, rfl, -⟩ := id hr; exact leaf_re (x := x) (ty := .emptyStruct) hw hw' hr h
    | str => obtain ⟨_, _, rfl, -⟩ := id hr; exact leaf_re (x := x) (ty := .emptyStruct) hw hw' hr h
    | arr => obtain ⟨_, _, _, rfl, -⟩ := id hr; exact leaf_re (x := x) (ty := .emptyStruct) hw hw' hr h
  | .jsonU rt n impl, v, v', V, W, hx, hw, hw', hr, hn, h1, h2, hV, h => dec_re (.jsonU rt n impl) hx hw hw' hr hn h1 h2 hV h
  | .textU rt n impl, v, v', V, W, hx, hw, hw', hr, hn, h1, h2, hV, h => dec_re (.textU rt n impl) hx hw hw' hr hn h1 h2 hV h
  | .any, v, v', V, W, hx, hw, hw', hr, hn, h1, h2, hV, h => dec_re .any hx hw hw' hr hn h1 h2 hV h
  | .array0, v, v', V, W, hx, hw, hw', hr, hn, h1, h2, hV, h => dec_re .array0 hx hw hw' hr hn h1 h2 hV h
  | .array n e, v, v', V, W, hx, hw, hw', hr, hn, h1, h2, hV, h => dec_re (.array n e) hx hw hw' hr hn h1 h2 hV h
  | .slice e, v, v', V, W, hx, hw, hw', hr, hn, h1, h2, hV, h => dec_re (.slice e) hx hw hw' hr hn h1 h2 hV h
  | .sliceOf k, v, v', V, W, hx, hw, hw', hr, hn, h1, h2, hV, h => dec_re (.sliceOf k) hx hw hw' hr hn h1 h2 hV h
  | .sliceES, v, v', V, W, hx, hw, hw', hr, hn, h1, h2, hV, h => dec_re .sliceES hx hw hw' hr hn h1 h2 hV h
  | .mapSS, v, v', V, W, hx, hw, hw', hr, hn, h1, h2, hV, h => dec_re .mapSS hx hw hw' hr hn h1 h2 hV h
  | .map k e, v, v', V, W, hx, hw, hw', hr, hn, h1, h2, hV, h => dec_re (.map k e) hx hw hw' hr hn h1 h2 hV h
  | .struct n fs, v, v', V, W, hx, hw, hw', hr, hn, h1, h2, hV, h => dec_re (.struct n fs) hx hw hw' hr hn h1 h2 hV h
  | .number, v, v', V, W, hx, hw, hw', hr, hn, h1, h2, hV, h => dec_re .number hx hw hw' hr hn h1 h2 hV h
  | .scalar k, v, v', V, W, hx, hw, hw', hr, hn, h1, h2, hV, h => dec_re (.scalar k) hx hw hw' hr hn h1 h2 hV h
  | .quoted k, v, v', V, W, hx, hw, hw', hr, hn, h1, h2, hV, h => dec_re (.quoted k) hx hw hw' hr hn h1 h2 hV h

/-! ## Tameness -/

mutual
/-- Reordering members does not lead to other spots. -/
theorem tame_re {x : Ext} {src src' : Bytes} {o : Options} : ∀ (ty : Ty) {v v' : JVal}, Wf src v → Wf src' v' → Reordered src src' v v' → Tame x src (some o) ty v → Tame x src' (some o) ty v'
  | .array n e, v, v', hw, hw', hr, h => by
    cases v with
    | arr i vs k =>
      obtain ⟨i', vs', k', rfl, hr⟩ := hr
      obtain ⟨hl, hg⟩ := reL_get hr
      intro w hm
      obtain ⟨j, hj⟩ := mem_get hm
      rw [List.getElem?_take] at hj
      split at hj
      · rename_i hjn
        have hlt := (List.getElem?_eq_some_iff.1 hj).1
        have hv : vs[j]? = some vs[j] := List.getElem?_eq_getElem (by omega)
        refine tame_re e (wfL_mem hw.2.2.2.2 _ (List.mem_of_getElem? hv)) (wfL_mem hw'.2.2.2.2 _ (List.mem_of_getElem? hj)) (hg j _ _ hv hj) (h _ ?_)
        exact List.mem_of_getElem? (i := j) (by rw [List.getElem?_take, if_pos hjn, hv])
      · cases hj
    | null => obtain ⟨_, _, rfl⟩ := hr; trivial
    | bool => obtain ⟨_, _, rfl⟩ := hr; trivial
    | num => obtain ⟨_, _, rfl, -⟩ := hr; trivial
    | str => obtain ⟨_, _, rfl, -⟩ := hr; trivial
    | obj => obtain ⟨_, _, _, rfl, -⟩ := hr; trivial
  | .slice e, v, v', hw, hw', hr, h => by
    cases v with
    | arr i vs k =>
      obtain ⟨i', vs', k', rfl, hr⟩ := hr
      obtain ⟨hl, hg⟩ := reL_get hr
      intro w hm
      obtain ⟨j, hj⟩ := mem_get hm
      have hlt := (List.getElem?_eq_some_iff.1 hj).1
      have hv : vs[j]? = some vs[j] := List.getElem?_eq_getElem (by omega)
      exact tame_re e (wfL_mem hw.2.2.2.2 _ (List.mem_of_getElem? hv)) (wfL_mem hw'.2.2.2.2 _ hm) (hg j _ _ hv hj) (h _ (List.mem_of_getElem? hv))
    | null => obtain ⟨_, _, rfl⟩ := hr; trivial
    | bool => obtain ⟨_, _, rfl⟩ := hr; trivial
    | num => obtain ⟨_, _, rfl, -⟩ := hr; trivial
    | str => obtain ⟨_, _, rfl, -⟩ := hr; trivial
    | obj => obtain ⟨_, _, _, rfl, -⟩ := hr; trivial
  | .map k e, v, v', hw, hw', hr, h => by
    cases v with
    | obj i ms z =>
      obtain ⟨i', ms', z', rfl, hr⟩ := hr
      refine ⟨fun hk => (reM_nil hr).1 (h.1 hk), fun m' hm' => ?_⟩
      obtain ⟨m, hm, -, hrm⟩ := reM_back hr m' hm'
      exact tame_re e (wfM_mem hw.2.2.2.2 m hm).2 (wfM_mem hw'.2.2.2.2 m' hm').2 hrm (h.2 m hm)
    | null => obtain ⟨_, _, rfl⟩ := hr; trivial
    | bool => obtain ⟨_, _, rfl⟩ := hr; trivial
    | num => obtain ⟨_, _, rfl, -⟩ := hr; trivial
    | str => obtain ⟨_, _, rfl, -⟩ := hr; trivial
    | arr => obtain ⟨_, _, _, rfl, -⟩ := hr; trivial
  | .struct n fs, v, v', hw, hw', hr, h => by
    cases v with
    | obj i ms z =>
      obtain ⟨i', ms', z', rfl, hr⟩ := hr
      simp only [Tame] at h ⊢
      intro m' hm' o' ho' raw name hraw hname
      obtain ⟨m, hm, hin, hrm⟩ := reM_back hr m' hm'
      have hwm := wfM_mem hw.2.2.2.2 m hm
      have hwm' := wfM_mem hw'.2.2.2.2 m' hm'
      rw [Doc.slice_inner hwm'.1, ← hin, ← Doc.slice_inner hwm.1] at hraw
      have := h m hm o' ho' raw name hraw hname
      cases hj : findField x o' ((fs.map (·.1)).zipIdx) name with
      | none => rw [hj] at this; simp only [] at this ⊢; rwa [← re_hasObj _ _ hrm]
      | some j =>
        rw [hj] at this
        simp only [] at this ⊢
        intro T hT
        rw [Means.tameF_get] at hT this
        cases hf : fs[j]? with
        | none => rw [hf] at hT; cases hT
        | some f =>
          rw [hf] at hT this
          cases hT
          exact tameF_re fs hf hwm.2 hwm'.2 hrm (this _ rfl)
    | null => obtain ⟨_, _, rfl⟩ := hr; trivial
    | bool => obtain ⟨_, _, rfl⟩ := hr; trivial
    | num => obtain ⟨_, _, rfl, -⟩ := hr; trivial
    | str => obtain ⟨_, _, rfl, -⟩ := hr; trivial
    | arr => obtain ⟨_, _, _, rfl, -⟩ := hr; trivial
  | .emptyStruct, v, v', hw, hw', hr, h => by
    cases v with
    | obj => exact h.elim
    | null => obtain ⟨_, _, rfl⟩ := hr; trivial
    | bool => obtain ⟨_, _, rfl⟩ := hr; trivial
    | num => obtain ⟨_, _, rfl, -⟩ := hr; trivial
    | str => obtain ⟨_, _, rfl, -⟩ := hr; trivial
    | arr => obtain ⟨_, _, _, rfl, -⟩ := hr; trivial
  | .ptr e, v, v', hw, hw', hr, h => by
    cases v with
    | null => obtain ⟨_, _, rfl⟩ := hr; trivial
    | _ => exact h.elim
  | .any, _, _, _, _, _, _ => trivial
  | .number, _, _, _, _, _, _ => trivial
  | .scalar _, _, _, _, _, _, _ => trivial
  | .quoted _, _, _, _, _, _, _ => trivial
  | .jsonU _ _ _, _, _, _, _, _, _ => trivial
  | .textU _ _ _, _, _, _, _, _, _ => trivial
  | .array0, _, _, _, _, _, _ => trivial
  | .sliceOf _, _, _, _, _, _, _ => trivial
  | .sliceES, _, _, _, _, _, _ => trivial
  | .mapSS, _, _, _, _, _, _ => trivial
theorem tameF_re {x : Ext} {src src' : Bytes} {o : Options} : ∀ (fs : List (Bytes × Nat × Ty)) {j : Nat} {f : Bytes × Nat × Ty}, fs[j]? = some f → ∀ {v v' : JVal}, Wf src v → Wf src' v' →
    Reordered src src' v v' → Tame x src (some o) f.2.2 v → Tame x src' (some o) f.2.2 v'
  | [], j, f, hf, _, _, _, _, _, _ => by simp at hf
  | (_, _, t) :: fs, 0, f, hf, v, v', hw, hw', hr, h => by
    simp only [List.getElem?_cons_zero, Option.some.injEq] at hf
    subst hf
    exact tame_re t hw hw' hr h
  | _ :: fs, j + 1, f, hf, v, v', hw, hw', hr, h => by
    simp only [List.getElem?_cons_succ] at hf
    exact tameF_re fs hf hw hw' hr h
end

theorem top_tame {x : Ext} {src src' : Bytes} {o : Options} : ∀ (ty : Ty) {v v' : JVal}, Wf src v → Wf src' v' → Reordered src src' v v' → TameDoc x src (some o) ty v → TameDoc x src' (some o) ty v'
  | .ptr e, v, v', hw, hw', hr, h => by
    by_cases hnull : ∃ i k, v = .null i k
    · obtain ⟨i, k, rfl⟩ := hnull
      obtain ⟨_, _, rfl⟩ := hr; trivial
    · rw [Drop.tameDoc_ptr fun i k hc => hnull ⟨i, k, hc⟩] at h
      rw [Drop.tameDoc_ptr fun i k hc => hnull (re_null hr ⟨i, k, hc⟩)]
      exact ⟨h.1, top_tame e hw hw' hr h.2⟩
  | .emptyStruct, _, _, _, _, _, _ => trivial
  | .any, _, _, _, _, _, _ => trivial
  | .number, _, _, _, _, _, _ => trivial
  | .scalar _, _, _, _, _, _, _ => trivial
  | .quoted _, _, _, _, _, _, _ => trivial
  | .jsonU _ _ _, _, _, _, _, _, _ => trivial
  | .textU _ _ _, _, _, _, _, _, _ => trivial
  | .array0, _, _, _, _, _, _ => trivial
  | .sliceOf _, _, _, _, _, _, _ => trivial
  | .sliceES, _, _, _, _, _, _ => trivial
  | .mapSS, _, _, _, _, _, _ => trivial
  | .array n e, _, _, hw, hw', hr, h => tame_re (.array n e) hw hw' hr h
  | .slice e, _, _, hw, hw', hr, h => tame_re (.slice e) hw hw' hr h
  | .map k e, _, _, hw, hw', hr, h => tame_re (.map k e) hw hw' hr h
  | .struct n fs, _, _, hw, hw', hr, h => tame_re (.struct n fs) hw hw' hr h

end Verif.Proof.Reorder

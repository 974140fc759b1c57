import Verif.Proof.ValDec
import Verif.Proof.SimStruct
/-!
# The reading on memory blocks agrees with the reading on values: composite types
-/
namespace Verif.Proof.Val
open Verif.Model Verif.Big Verif.Spec Verif.Proof.Mem

/-- A decoder on memory and one on values correspond. -/
def Corr (n : Nat) (P : Block → Nat → Val → Prop) (f : JVal → Block → Nat → Res) (g : JVal → Val → R Val) : Prop :=
  ∀ v b off W, P b off W → Rel (fun b' W' => P b' off W') b off n (f v b off) (g v W)

theorem Rel.bind {α β : Type} {P : Block → α → Prop} {Q : Block → β → Prop} {f : α → β} {a b : Block} {o m off n : Nat} {r : Res} {r' : R α}
    {put : Block → Option Block} (h : Rel P a o m r r')
    (hq : ∀ a' w, P a' w → Frm a a' o m → ∃ b', put a' = some b' ∧ Q b' (f w) ∧ Frm b b' off n) : Rel Q b off n (r.bindB put) (r'.map f) := by
  cases r <;> cases r' <;> simp only [Rel, R.map, Res.bindB] at * <;> try exact h
  · obtain ⟨b', h1, h2, h3⟩ := hq _ _ h.1 h.2
    simp only [h1]; exact ⟨h2, h3⟩
  · obtain ⟨h4, h5, h6, h7⟩ := h
    obtain ⟨b', h1, h2, h3⟩ := hq _ _ h6 h7
    simp only [h1]; exact ⟨h4, h5, h2, h3⟩

theorem set_get_self {b : Block} {off : Nat} {c : Cell} (h : off < b.length) : (b.set off c)[off]? = some c := by simp [h]

theorem frm_set {b : Block} {off n : Nat} {c : Cell} (hn : 0 < n) : Frm b (b.set off c) off n := by
  refine ⟨by simp, fun j hj => ?_⟩
  rw [List.getElem?_set_ne (by omega)]

/-! ## Slices -/

theorem hdr_slice {esz : Nat} {P : Block → Nat → Val → Prop} {c : Option Cell} {V : Val} (h : HoldsSlice esz P c V) :
    ∃ es sp a, sliceHdr c = some (es.length, (es ++ sp).length, a) ∧ sliceParts V = (es, sp) ∧ a.length = (es ++ sp).length * esz ∧ HeldL esz P a 0 (es ++ sp) := by
  rcases h with ⟨h1, h2⟩ | ⟨a, es, sp, h1, h2, h3, h4⟩
  · subst h1 h2
    exact ⟨[], [], [], rfl, rfl, by simp, fun i W hi => by simp at hi⟩
  · subst h1 h2
    exact ⟨es, sp, a, rfl, rfl, h3, fun i W hi => by simpa using h4 i W hi⟩

theorem grow_prep {esz : Nat} {P : Block → Nat → Val → Prop} (hP : Loc esz P) {z : Val} (hz : ∀ n off, off + esz ≤ n → P (zeros n) off z)
    {n : Nat} {cp : Bool} {V : Val} {es sp : List Val} {a : Block} (hV : sliceParts V = (es, sp)) (ha : a.length = (es ++ sp).length * esz)
    (hh : HeldL esz P a 0 (es ++ sp)) : ∃ base sp' a', prepSlice z cp n V = (base, sp') ∧ base.length = n ∧
      growSlice esz n cp es.length (es ++ sp).length a = .slice n (base ++ sp').length a' ∧ a'.length = (base ++ sp').length * esz ∧ HeldL esz P a' 0 (base ++ sp') := by
  unfold prepSlice growSlice
  simp only [hV]
  by_cases hc : (es ++ sp).length < n
  · simp only [if_pos hc]
    cases cp with
    | false =>
      refine ⟨List.replicate n z, [], zeros (n * esz), by simp, by simp, by simp, by simp [zeros_length], ?_⟩
      intro i W hi
      have hlt : i < n := by have := (List.getElem?_eq_some_iff.1 hi).1; simpa using this
      have hW : W = z := by simpa [hlt] using hi.symm
      subst hW
      have hb : i * esz + esz ≤ n * esz := by
        have := Nat.mul_le_mul_right esz (Nat.succ_le_of_lt hlt)
        rw [Nat.succ_mul] at this; exact this
      exact hz _ _ (by omega)
    | true =>
      have hle : es.length ≤ n := by simp at hc; omega
      have hlm : es.length * esz ≤ n * esz := Nat.mul_le_mul_right _ hle
      have hla : es.length * esz ≤ a.length := by rw [ha]; exact Nat.mul_le_mul_right _ (by simp)
      have key : HeldL esz P (a.take (es.length * esz) ++ zeros (n * esz - es.length * esz)) 0 (es ++ List.replicate (n - es.length) z) := by
        intro i W hi
        have hlt : i < n := by have := (List.getElem?_eq_some_iff.1 hi).1; simp at this; omega
        have hb : i * esz + esz ≤ n * esz := by
          have := Nat.mul_le_mul_right esz (Nat.succ_le_of_lt hlt)
          rw [Nat.succ_mul] at this; exact this
        have hlen : (a.take (es.length * esz) ++ zeros (n * esz - es.length * esz)).length = n * esz := by
          simp [zeros_length, Nat.min_eq_left hla]; omega
        by_cases he : i < es.length
        · have hb' : i * esz + esz ≤ es.length * esz := by
            have := Nat.mul_le_mul_right esz (Nat.succ_le_of_lt he)
            rw [Nat.succ_mul] at this; exact this
          have h0 := hh i W (by rw [List.getElem?_append_left he] at hi ⊢; exact hi)
          refine hP.agree h0 (fun j h1 h2 => ?_) (by omega)
          rw [List.getElem?_append_left (by simp; omega), List.getElem?_take, if_pos (by omega)]
        · have hW : W = z := by
            rw [List.getElem?_append_right (by omega)] at hi
            have : i - es.length < n - es.length := by omega
            simpa [this] using hi.symm
          subst hW
          have hb' : es.length * esz ≤ i * esz := Nat.mul_le_mul_right _ (by omega)
          refine hP.agree (hz (n * esz) (0 + i * esz) (by omega)) (fun j h1 h2 => ?_) (by omega)
          have htl : (a.take (es.length * esz)).length = es.length * esz := by rw [List.length_take]; omega
          rw [List.getElem?_append_right (by omega), htl, zeros_get (show j - es.length * esz < n * esz - es.length * esz by omega),
            zeros_get (show j < n * esz by omega)]
      have hlen2 : (es ++ List.replicate (n - es.length) z ++ ([] : List Val)).length = n := by simp; omega
      by_cases h0 : es.length = 0
      · have : es = [] := List.length_eq_zero_iff.1 h0
        subst this
        refine ⟨List.replicate n z, [], zeros (n * esz), by simp, by simp, by simp, by simp [zeros_length], ?_⟩
        simpa using key
      · refine ⟨es ++ List.replicate (n - es.length) z, [], _, by simp, by simp; omega, by rw [if_pos ⟨rfl, h0⟩, hlen2], ?_, ?_⟩
        · rw [hlen2]
          simp [zeros_length, Nat.min_eq_left hla]; omega
        · rw [List.append_nil]; exact key
  · simp only [if_neg hc]
    refine ⟨_, _, a, rfl, by simp at hc ⊢; omega, ?_, ?_, ?_⟩
    · rw [List.take_append_drop]
    · rw [List.take_append_drop]; exact ha
    · rw [List.take_append_drop]; exact hh

/-- The elements of a slice after decoding, followed by the untouched spare elements. -/
theorem heldL_append {esz : Nat} {P : Block → Nat → Val → Prop} (hP : Loc esz P) {a a' : Block} {base base' sp : List Val} (hlen : base'.length = base.length)
    (h : HeldL esz P a 0 (base ++ sp)) (hl : a.length = (base ++ sp).length * esz) (h' : HeldL esz P a' 0 base') (hf : Frm a a' 0 (base.length * esz)) :
    HeldL esz P a' 0 (base' ++ sp) := by
  intro i W hi
  by_cases hlt : i < base'.length
  · exact h' i W (by rwa [List.getElem?_append_left hlt] at hi)
  · have hi2 := (List.getElem?_eq_some_iff.1 hi).1
    have hb' : base.length * esz ≤ i * esz := Nat.mul_le_mul_right _ (by omega)
    have h0 := h i W (by
      rw [List.getElem?_append_right (by omega)] at hi ⊢
      rw [← hlen]; exact hi)
    refine hP.agree h0 (hf.agree (.inl (by omega))) ?_
    have := hP.len h0
    have := hf.1
    omega

theorem slice_rel {x : Ext} {esz : Nat} {P : Block → Nat → Val → Prop} (hP : Loc esz P) {z : Val} (hz : ∀ n off, off + esz ≤ n → P (zeros n) off z)
    {f : JVal → Block → Nat → Res} {g : JVal → Val → R Val} (hfg : Corr esz P f g) {cp : Bool} {vs : List JVal} {b : Block} {off : Nat} {V : Val}
    (h : off + 3 * x.W ≤ b.length ∧ HoldsSlice esz P b[off]? V) :
    Rel (fun b' W => off + 3 * x.W ≤ b'.length ∧ HoldsSlice esz P b'[off]? W) b off (3 * x.W) (sliceB x f esz cp vs b off) (sliceV g z cp vs V) := by
  have hW := Sim.W_pos x
  obtain ⟨hl, h⟩ := h
  unfold sliceB sliceV
  by_cases hvs : vs = []
  · simp only [if_pos hvs]
    refine store_rel (seg_length _ _) hl (fun b' hb => ⟨by have := blit_length hb; omega, .inr ⟨[], [], [], ?_, rfl, by simp, fun i W hi => by simp at hi⟩⟩) (fun _ => rfl)
    exact Sim.blit_seg_get (by omega) hb
  · simp only [if_neg hvs]
    obtain ⟨es, sp, a, h1, h2, h3, h4⟩ := hdr_slice h
    obtain ⟨base, sp', a', k1, k2, k3, k4, k5⟩ := grow_prep hP hz (n := vs.length) (cp := cp) h2 h3 h4
    rw [h1, k1]
    simp only [k3]
    obtain ⟨b1, hb1⟩ := (blit_isSome (b := b) (off := off) (s := seg (3 * x.W) (.slice vs.length (base ++ sp').length a'))).2 (by rw [seg_length]; omega)
    have hc1 := Sim.blit_seg_get (by omega) hb1
    have hl1 := blit_length hb1
    have hg : getBlock b1 [⟨off, .arr⟩] = some a' := by simp [getBlock, hc1, ownedBlock]
    simp only [hb1, hg]
    have hE := elems_rel hP (f := f) (g := g) vs base a' 0 (by omega) (fun v _ => hfg v)
      (fun i W hi => k5 i W (by rw [List.getElem?_append_left (List.getElem?_eq_some_iff.1 hi).1]; exact hi))
      (by rw [k4, Nat.zero_add]; exact Nat.mul_le_mul_right _ (by simp))
    refine hE.bind (fun arr' es' ⟨hp, hpl⟩ hf => ?_)
    refine ⟨b1.set off (.slice vs.length (base ++ sp').length arr'), ?_, ⟨by simp; omega, .inr ⟨arr', es', sp', ?_, rfl, ?_, ?_⟩⟩, ?_⟩
    · simp [putIn, putBlock, hc1, ownedBlock, setOwned]
    · rw [set_get_self (by omega)]
      have : es'.length = vs.length := by omega
      simp [this, k2]
    · rw [hf.1, k4]; simp [hpl]
    · have := heldL_append hP hpl k5 k4 hp hf
      intro i W hi
      simpa using this i W hi
    · have h1 := frm_blit hb1
      rw [seg_length] at h1
      exact h1.trans (frm_set (by omega))

theorem sliceOf_rel {x : Ext} {src : Bytes} {k : SKind} {P : Block → Nat → Val → Prop} (hP : Loc (k.bytes x) P) (hz : ∀ n off, off + k.bytes x ≤ n → P (zeros n) off (zeroS k))
    {g : JVal → Val → R Val} (hfg : Corr (k.bytes x) P (elemB x src k) g) {vs : List JVal} {b : Block} {off : Nat} {V : Val}
    (h : off + 3 * x.W ≤ b.length ∧ HoldsSlice (k.bytes x) P b[off]? V) :
    Rel (fun b' W => off + 3 * x.W ≤ b'.length ∧ HoldsSlice (k.bytes x) P b'[off]? W) b off (3 * x.W) (sliceOfB x src k vs b off) (sliceOfV g (zeroS k) vs V) := by
  have hW := Sim.W_pos x
  obtain ⟨hl, h⟩ := h
  unfold sliceOfB sliceOfV
  by_cases hvs : vs = []
  · simp only [if_pos hvs]
    refine store_rel (seg_length _ _) hl (fun b' hb => ⟨by have := blit_length hb; omega, .inr ⟨[], [], [], ?_, rfl, by simp, fun i W hi => by simp at hi⟩⟩) (fun _ => rfl)
    exact Sim.blit_seg_get (by omega) hb
  · simp only [if_neg hvs]
    obtain ⟨es, sp, a, h1, h2, h3, h4⟩ := hdr_slice h
    simp only [h1, h2]
    by_cases hc : (es ++ sp).length < vs.length
    · simp only [if_pos hc]
      have hE := elems_rel hP (f := elemB x src k) (g := g) vs (List.replicate vs.length (zeroS k)) (zeros (vs.length * k.bytes x)) 0 (by simp) (fun v _ => hfg v)
        (fun i W hi => by
          have hlt : i < vs.length := by have := (List.getElem?_eq_some_iff.1 hi).1; simpa using this
          have hW : W = zeroS k := by simpa [hlt] using hi.symm
          subst hW
          have hb : i * k.bytes x + k.bytes x ≤ vs.length * k.bytes x := by
            have := Nat.mul_le_mul_right (k.bytes x) (Nat.succ_le_of_lt hlt)
            rw [Nat.succ_mul] at this; exact this
          exact hz _ _ (by omega))
        (by simp [zeros_length])
      cases hB : elemsB (elemB x src k) (k.bytes x) vs (zeros (vs.length * k.bytes x)) 0 with
      | ok arr =>
        cases hG : elemsV g vs (List.replicate vs.length (zeroS k)) with
        | ok es' =>
          rw [hB, hG] at hE
          simp only [Rel, List.length_replicate] at hE
          simp only []
          refine store_rel (seg_length _ _) hl (fun b' hb => ⟨by have := blit_length hb; omega, .inr ⟨arr, es', [], ?_, rfl, ?_, ?_⟩⟩) (fun _ => rfl)
          · rw [Sim.blit_seg_get (by omega) hb]; simp [hE.1.2]
          · have := hE.2.1; simp [hE.1.2, this, zeros_length]
          · intro i W hi; simpa using hE.1.1 i W (by simpa using hi)
        | err i e es' => rw [hB, hG] at hE; exact hE.elim
        | crash => rw [hB, hG] at hE; exact hE.elim
        | unsup => rw [hB, hG] at hE; exact hE.elim
      | err i e arr =>
        cases hG : elemsV g vs (List.replicate vs.length (zeroS k)) with
        | err i' e' es' => rw [hB, hG] at hE; exact ⟨hE.1, hE.2.1, ⟨hl, h⟩, Frm.refl _ _ _⟩
        | ok es' => rw [hB, hG] at hE; exact hE.elim
        | crash => rw [hB, hG] at hE; exact hE.elim
        | unsup => rw [hB, hG] at hE; exact hE.elim
      | crash =>
        cases hG : elemsV g vs (List.replicate vs.length (zeroS k)) <;> rw [hB, hG] at hE <;> first | exact hE.elim | trivial
      | unsup =>
        cases hG : elemsV g vs (List.replicate vs.length (zeroS k)) <;> rw [hB, hG] at hE <;> first | exact hE.elim | trivial
    · simp only [if_neg hc]
      have hn : vs.length ≤ (es ++ sp).length := by omega
      have hnm : vs.length * k.bytes x ≤ a.length := by rw [h3]; exact Nat.mul_le_mul_right _ hn
      have hbl : ((es ++ sp).take vs.length).length = vs.length := by rw [List.length_take]; omega
      have hta : (a.take (vs.length * k.bytes x)).length = vs.length * k.bytes x := by rw [List.length_take]; omega
      have hE := elems_rel hP (f := elemB x src k) (g := g) vs ((es ++ sp).take vs.length) (a.take (vs.length * k.bytes x)) 0 (by omega) (fun v _ => hfg v)
        (fun i W hi => by
          have hlt : i < vs.length := by have := (List.getElem?_eq_some_iff.1 hi).1; omega
          have hb : i * k.bytes x + k.bytes x ≤ vs.length * k.bytes x := by
            have := Nat.mul_le_mul_right (k.bytes x) (Nat.succ_le_of_lt hlt)
            rw [Nat.succ_mul] at this; exact this
          rw [List.getElem?_take, if_pos hlt] at hi
          exact hP.agree (h4 i W hi) (fun j h1 h2 => by rw [List.getElem?_take, if_pos (by omega)]) (by omega))
        (by rw [hbl, hta]; omega)
      rw [hbl] at hE
      -- the array with the new elements and the old rest
      have hall : ∀ (arr : Block) (es' : List Val), HeldL (k.bytes x) P arr 0 es' → es'.length = vs.length → Frm (a.take (vs.length * k.bytes x)) arr 0 (vs.length * k.bytes x) →
          (arr ++ a.drop (vs.length * k.bytes x)).length = (es' ++ (es ++ sp).drop vs.length).length * k.bytes x ∧
          HeldL (k.bytes x) P (arr ++ a.drop (vs.length * k.bytes x)) 0 (es' ++ (es ++ sp).drop vs.length) := by
        intro arr es' q1 q2 q3
        have hal : arr.length = vs.length * k.bytes x := by rw [q3.1, hta]
        have hlen : (es' ++ (es ++ sp).drop vs.length).length = (es ++ sp).length := by
          rw [List.length_append, List.length_drop]; omega
        constructor
        · rw [hlen, ← h3, List.length_append, List.length_drop]; omega
        · intro i W hi
          have hi2 := (List.getElem?_eq_some_iff.1 hi).1
          rw [hlen] at hi2
          have hb : i * k.bytes x + k.bytes x ≤ (es ++ sp).length * k.bytes x := by
            have := Nat.mul_le_mul_right (k.bytes x) (Nat.succ_le_of_lt hi2)
            rw [Nat.succ_mul] at this; exact this
          have htot : (arr ++ a.drop (vs.length * k.bytes x)).length = a.length := by
            rw [List.length_append, List.length_drop]; omega
          by_cases hlt : i < es'.length
          · rw [List.getElem?_append_left hlt] at hi
            have hb2 : i * k.bytes x + k.bytes x ≤ vs.length * k.bytes x := by
              have := Nat.mul_le_mul_right (k.bytes x) (Nat.succ_le_of_lt (q2 ▸ hlt))
              rw [Nat.succ_mul] at this; exact this
            exact hP.agree (q1 i W hi) (fun j r1 r2 => by rw [List.getElem?_append_left (by omega)]) (by omega)
          · rw [List.getElem?_append_right (by omega), List.getElem?_drop] at hi
            have : vs.length + (i - es'.length) = i := by omega
            rw [this] at hi
            have hb2 : vs.length * k.bytes x ≤ i * k.bytes x := Nat.mul_le_mul_right _ (by omega)
            refine hP.agree (h4 i W hi) (fun j r1 r2 => ?_) (by omega)
            rw [List.getElem?_append_right (by omega), List.getElem?_drop]
            congr 1; omega
      cases hB : elemsB (elemB x src k) (k.bytes x) vs (a.take (vs.length * k.bytes x)) 0 with
      | ok arr =>
        cases hG : elemsV g vs ((es ++ sp).take vs.length) with
        | ok es' =>
          rw [hB, hG] at hE
          simp only [Rel] at hE
          obtain ⟨⟨q1, q2⟩, q3⟩ := hE
          obtain ⟨r1, r2⟩ := hall arr es' q1 (by omega) q3
          simp only []
          refine store_rel (seg_length _ _) hl (fun b' hb => ⟨by have := blit_length hb; omega, .inr ⟨_, es', _, ?_, rfl, r1, ?_⟩⟩) (fun _ => rfl)
          · rw [Sim.blit_seg_get (by omega) hb]
            have e1 : vs.length = es'.length := by omega
            have e2 : (es ++ sp).length = (es' ++ (es ++ sp).drop vs.length).length := by rw [List.length_append (as := es'), List.length_drop]; omega
            rw [← e2, ← e1]
          · intro i W hi; simpa using r2 i W hi
        | err i e es' => rw [hB, hG] at hE; exact hE.elim
        | crash => rw [hB, hG] at hE; exact hE.elim
        | unsup => rw [hB, hG] at hE; exact hE.elim
      | err i e arr =>
        cases hG : elemsV g vs ((es ++ sp).take vs.length) with
        | err i' e' es' =>
          rw [hB, hG] at hE
          simp only [Rel] at hE
          obtain ⟨q4, q5, ⟨q1, q2⟩, q3⟩ := hE
          obtain ⟨r1, r2⟩ := hall arr es' q1 (by omega) q3
          simp only []
          obtain ⟨b', hb⟩ := (blit_isSome (b := b) (off := off) (s := seg (3 * x.W) (.slice es.length (es ++ sp).length (arr ++ a.drop (vs.length * k.bytes x))))).2 (by rw [seg_length]; omega)
          rw [hb]
          simp only [Rel]
          have hfb := frm_blit hb
          rw [seg_length] at hfb
          refine ⟨q4, q5, ⟨by have := blit_length hb; omega, .inr ⟨arr ++ a.drop (vs.length * k.bytes x), _, _, ?_, rfl, ?_, ?_⟩⟩, hfb⟩
          · rw [Sim.blit_seg_get (by omega) hb, List.take_append_drop]
            have e2 : (es ++ sp).length = (es' ++ (es ++ sp).drop vs.length).length := by rw [List.length_append (as := es'), List.length_drop]; omega
            have e3 : es.length = ((es' ++ (es ++ sp).drop vs.length).take es.length).length := by
              rw [List.length_take, ← e2, List.length_append]; omega
            rw [← e2, ← e3]
          · rw [List.take_append_drop]; exact r1
          · rw [List.take_append_drop]; intro i W hi; simpa using r2 i W hi
        | ok es' => rw [hB, hG] at hE; exact hE.elim
        | crash => rw [hB, hG] at hE; exact hE.elim
        | unsup => rw [hB, hG] at hE; exact hE.elim
      | crash =>
        cases hG : elemsV g vs ((es ++ sp).take vs.length) <;> rw [hB, hG] at hE <;> first | exact hE.elim | trivial
      | unsup =>
        cases hG : elemsV g vs ((es ++ sp).take vs.length) <;> rw [hB, hG] at hE <;> first | exact hE.elim | trivial

end Verif.Proof.Val

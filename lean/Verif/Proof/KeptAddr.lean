import Verif.Proof.ValAll
import Verif.Spec.NoSlices
/-!
# Addresses of values of a type

`Addressed x root a ty`: in whatever memory holds a value of type `root`, the address `a`, if it leads anywhere, leads to a value of type `ty`, and replacing that value by another of type `ty` leaves a value of type `root`. If `root` has no slices, then the address leads to such a value whenever its block exists.
-/
namespace Verif.Proof.Kept
open Verif.Model Verif.Spec Verif.Big Verif.Proof Verif.Proof.Val

/-- See above. -/
structure Addressed (x : Ext) (root : Ty) (a : Addr) (ty : Ty) : Prop where
  value : 0 < ty.size x → ∀ m V, Holds x root m 0 V → ∀ blk, getBlock m a.path = some blk → a.off < blk.length →
    (∃ W, Holds x ty blk a.off W) ∧
    ∀ blk', Frm blk blk' a.off (ty.size x) → (∃ W, Holds x ty blk' a.off W) → ∀ m', putBlock m a.path blk' = some m' → ∃ V', Holds x root m' 0 V'
  noSlices : root.noSlices = true → ty.noSlices = true
  inside : root.noSlices = true → ∀ m V, Holds x root m 0 V → ∀ blk, getBlock m a.path = some blk → a.off + ty.size x ≤ blk.length

theorem noSlicesF_get : ∀ {fs : List (Bytes × Nat × Ty)} {k : Nat} {f : Bytes × Nat × Ty}, noSlicesF fs = true → fs[k]? = some f → f.2.2.noSlices = true
  | (_, _, t) :: fs, 0, f, h, hf => by simp at hf; subst hf; simp only [noSlicesF, Bool.and_eq_true] at h; exact h.1
  | (_, _, t) :: fs, k + 1, f, h, hf => by simp only [noSlicesF, Bool.and_eq_true] at h; exact noSlicesF_get h.2 (by simpa using hf)

variable {x : Ext} {root : Ty}

theorem addr_root : Addressed x root ⟨[], 0⟩ root := by
  refine ⟨?_, id, fun _ m V h blk hg => by simp only [getBlock] at hg; cases hg; exact holds_len h⟩
  intro _ m V h blk hg _
  simp only [getBlock] at hg; cases hg
  refine ⟨⟨V, h⟩, fun blk' _ hW m' hp => ?_⟩
  simp only [putBlock] at hp; cases hp
  exact hW

theorem addr_field {p : List Step} {o size k : Nat} {fs : List (Bytes × Nat × Ty)} {f : Bytes × Nat × Ty} (hok : OKF x size fs) (hf : fs[k]? = some f) (h : Addressed x root ⟨p, o⟩ (.struct size fs)) :
    Addressed x root ⟨p, o + f.2.1⟩ f.2.2 := by
  have hsz := (okF_get hok hf).1
  refine ⟨?_, fun hn => noSlicesF_get (by simpa [Ty.noSlices] using h.noSlices hn) hf, fun hn m V hV blk hg => ?_⟩
  rotate_left
  · have := h.inside hn m V hV blk hg
    simp only [Ty.size] at this ⊢
    omega
  intro hpos m V hV blk hg hlt
  obtain ⟨⟨W, hW⟩, hput⟩ := h.value (by simp only [Ty.size]; omega) m V hV blk hg (by simp only [] at hlt ⊢; omega)
  simp only [Holds] at hW
  obtain ⟨hl, Ws, rfl, hF⟩ := hW
  obtain ⟨W, hi, hW⟩ := holdsF_get hF hf
  refine ⟨⟨W, hW⟩, fun blk' hfr ⟨W', hW'⟩ m' hp => ?_⟩
  refine hput blk' (hfr.mono (by simp only []; omega) (by simp only [Ty.size]; omega)) ⟨.struct (Ws.set k W'), ?_⟩ m' hp
  simp only [Holds]
  exact ⟨by have := hfr.1; omega, _, rfl, holdsF_set hok hf hF hfr hW'⟩

theorem mul_step {i n e : Nat} (h : i < n) : i * e + e ≤ n * e := by
  have := Nat.mul_le_mul_right e (Nat.succ_le_of_lt h)
  rw [Nat.succ_mul] at this; exact this

theorem mul_apart {i j e : Nat} (h : i ≠ j) : i * e + e ≤ j * e ∨ j * e + e ≤ i * e := by
  rcases Nat.lt_or_gt_of_ne h with h | h
  · exact .inl (mul_step h)
  · exact .inr (mul_step h)

theorem addr_elem {p : List Step} {o n i : Nat} {e : Ty} (hok : OK x e) (hi : i < n) (h : Addressed x root ⟨p, o⟩ (.array n e)) : Addressed x root ⟨p, o + i * e.size x⟩ e := by
  have hst := mul_step (e := e.size x) hi
  refine ⟨?_, fun hn => by simpa [Ty.noSlices] using h.noSlices hn, fun hn m V hV blk hg => ?_⟩
  rotate_left
  · have := h.inside hn m V hV blk hg
    simp only [Ty.size] at this ⊢
    omega
  intro hpos m V hV blk hg hlt
  obtain ⟨⟨W, hW⟩, hput⟩ := h.value (by simp only [Ty.size]; omega) m V hV blk hg (by simp only [] at hlt ⊢; omega)
  simp only [Holds] at hW
  obtain ⟨hl, es, rfl, hlen, hes⟩ := hW
  obtain ⟨W, hW⟩ : ∃ W, es[i]? = some W := ⟨_, List.getElem?_eq_getElem (by omega)⟩
  refine ⟨⟨W, hes i W hW⟩, fun blk' hfr ⟨W', hW'⟩ m' hp => ?_⟩
  refine hput blk' (hfr.mono (by simp only []; omega) (by simp only [Ty.size]; omega)) ⟨.arr (es.set i W'), ?_⟩ m' hp
  simp only [Holds]
  have hl' := hfr.1
  refine ⟨by omega, _, rfl, by simp [hlen], fun j U hj => ?_⟩
  by_cases hji : i = j
  · subst hji
    rw [List.getElem?_set_self (by omega)] at hj
    cases hj; exact hW'
  · rw [List.getElem?_set_ne hji] at hj
    have h1 := hes j U hj
    refine holds_agree e hok h1 (hfr.agree ?_) (by have := holds_len h1; omega)
    have := mul_apart (e := e.size x) hji
    simp only []; omega

/-- Through an owning cell. -/
theorem addr_below {a : Addr} {sel : Sel} {pty : Ty} (hpos : 0 < pty.size x) (h : Addressed x root a pty) {m : Block} {V : Val} (hV : Holds x root m 0 V) {blk : Block} (hg : getBlock m (a.into sel).path = some blk) :
    ∃ pb c W, pb[a.off]? = some c ∧ ownedBlock c sel = some blk ∧ Holds x pty pb a.off W ∧
      ∀ blk' m', putBlock m (a.into sel).path blk' = some m' → (∃ W', Holds x pty (pb.set a.off (setOwned c sel blk')) a.off W') → ∃ V', Holds x root m' 0 V' := by
  simp only [Addr.into, Mem.getBlock_append] at hg
  rw [Option.bind_eq_some_iff] at hg
  obtain ⟨pb, hpb, hg⟩ := hg
  simp only [getBlock] at hg
  split at hg
  · cases hg
  · rename_i c hc
    split at hg
    · cases hg
    · rename_i b hb
      cases hg
      have hlt := (List.getElem?_eq_some_iff.1 hc).1
      obtain ⟨⟨W, hW⟩, hput⟩ := h.value hpos m V hV pb hpb hlt
      refine ⟨pb, c, W, hc, hb, hW, fun blk' m' hp hW' => ?_⟩
      simp only [Addr.into] at hp
      rw [Mem.putBlock_append hpb] at hp
      simp only [putBlock, hc, hb, Option.bind_some] at hp
      exact hput _ (frm_set hpos) hW' m' hp

theorem W_pos (x : Ext) : 0 < x.W := by unfold Ext.W; split <;> omega

theorem addr_deref {a : Addr} {e : Ty} (h : Addressed x root a (.ptr e)) : Addressed x root (a.into .deref) e := by
  refine ⟨?_, fun hn => by simpa [Ty.noSlices] using h.noSlices hn, fun hn m V hV blk hg => ?_⟩
  rotate_left
  · obtain ⟨pb, c, W, hc, hb, hW, -⟩ := addr_below (by simp only [Ty.size]; exact W_pos x) h hV hg
    simp only [Holds] at hW
    rcases hW.2 with ⟨h1, -⟩ | ⟨b, W1, h1, -, h2, h3⟩
    · rw [hc] at h1; cases h1; simp [ownedBlock] at hb
    · rw [hc] at h1; cases h1
      simp only [ownedBlock, Option.some.injEq] at hb
      subst hb
      simp only [Addr.into]; omega
  intro hpos m V hV blk hg hlt
  obtain ⟨pb, c, W, hc, hb, hW, hput⟩ := addr_below (by simp only [Ty.size]; exact W_pos x) h hV hg
  simp only [Holds] at hW
  obtain ⟨hl, hW⟩ := hW
  rcases hW with ⟨h1, -⟩ | ⟨b, W1, h1, -, h2, h3⟩
  · rw [hc] at h1; cases h1; simp [ownedBlock] at hb
  · rw [hc] at h1; cases h1
    simp only [ownedBlock, Option.some.injEq] at hb
    subst hb
    refine ⟨⟨W1, h3⟩, fun blk' hfr ⟨W', hW'⟩ m' hp => hput blk' m' hp ⟨.ptr W', ?_⟩⟩
    simp only [Holds, setOwned]
    refine ⟨by simpa using hl, .inr ⟨blk', W', ?_, rfl, by rw [hfr.1]; exact h2, hW'⟩⟩
    exact set_get_self (by have := W_pos x; omega)

theorem addr_arr {a : Addr} {e : Ty} (hok : OK x e) (h : Addressed x root a (.slice e)) (i : Nat) : Addressed x root ⟨(a.into .arr).path, (a.into .arr).off + i * e.size x⟩ e := by
  refine ⟨?_, fun hn => absurd (h.noSlices hn) (by simp [Ty.noSlices]), fun hn => absurd (h.noSlices hn) (by simp [Ty.noSlices])⟩
  intro hpos m V hV blk hg hlt
  obtain ⟨pb, c, W, hc, hb, hW, hput⟩ := addr_below (by simp only [Ty.size]; have := W_pos x; omega) h hV hg
  simp only [Holds] at hW
  obtain ⟨hl, hW⟩ := hW
  rcases hW with ⟨h1, -⟩ | ⟨b, es, sp, h1, -, h2, h3⟩
  · rw [hc] at h1; cases h1; simp [ownedBlock] at hb
  · rw [hc] at h1; cases h1
    simp only [ownedBlock, Option.some.injEq] at hb
    subst hb
    simp only [Addr.into, Nat.zero_add] at hlt ⊢
    have hi : i < (es ++ sp).length := by
      rcases Nat.lt_or_ge i (es ++ sp).length with h | h
      · exact h
      · have := Nat.mul_le_mul_right (e.size x) h; omega
    obtain ⟨W, hW⟩ : ∃ W, (es ++ sp)[i]? = some W := ⟨_, List.getElem?_eq_getElem hi⟩
    refine ⟨⟨W, h3 i W hW⟩, fun blk' hfr ⟨W', hW'⟩ m' hp => hput blk' m' hp ?_⟩
    have hle : es.length ≤ (es ++ sp).length := by simp
    refine ⟨.slice (((es ++ sp).set i W').take es.length) (((es ++ sp).set i W').drop es.length), ?_⟩
    simp only [Holds, setOwned]
    refine ⟨by simpa using hl, .inr ⟨blk', _, _, ?_, rfl, ?_, ?_⟩⟩
    · rw [List.take_append_drop, set_get_self (by have := W_pos x; omega), List.length_take, List.length_set, Nat.min_eq_left hle]
    · rw [List.take_append_drop, List.length_set, hfr.1]; exact h2
    · intro j U hj
      rw [List.take_append_drop] at hj
      by_cases hji : i = j
      · subst hji
        rw [List.getElem?_set_self hi] at hj
        cases hj; exact hW'
      · rw [List.getElem?_set_ne hji] at hj
        have h1 := h3 j U hj
        refine holds_agree e hok h1 (hfr.agree ?_) (by have := holds_len h1; have := hfr.1; omega)
        have := mul_apart (e := e.size x) hji
        omega

theorem addr_entry {a : Addr} {e : Ty} {kt : KeyTy} (h : Addressed x root a (.map kt e)) (k : Key) : Addressed x root (a.into (.entry k)) e := by
  refine ⟨?_, fun hn => by simpa [Ty.noSlices] using h.noSlices hn, fun hn m V hV blk hg => ?_⟩
  rotate_left
  · obtain ⟨pb, c, W, hc, hb, hW, -⟩ := addr_below (by simp only [Ty.size]; exact W_pos x) h hV hg
    simp only [Holds] at hW
    rcases hW.2 with ⟨h1, -⟩ | ⟨es, Vs, h1, -, h2⟩
    · rw [hc] at h1; cases h1; simp [ownedBlock] at hb
    · rw [hc] at h1; cases h1
      simp only [ownedBlock] at hb
      rcases entries_lookup k h2 with ⟨h3, -⟩ | ⟨eb, W1, h3, h4, h5, h6⟩
      · rw [hb] at h3; cases h3
      · rw [hb] at h3; cases h3
        simp only [Addr.into]; omega
  intro hpos m V hV blk hg hlt
  obtain ⟨pb, c, W, hc, hb, hW, hput⟩ := addr_below (by simp only [Ty.size]; exact W_pos x) h hV hg
  simp only [Holds] at hW
  obtain ⟨hl, hW⟩ := hW
  rcases hW with ⟨h1, -⟩ | ⟨es, Vs, h1, -, h2⟩
  · rw [hc] at h1; cases h1; simp [ownedBlock] at hb
  · rw [hc] at h1; cases h1
    simp only [ownedBlock] at hb
    rcases entries_lookup k h2 with ⟨h3, -⟩ | ⟨eb, W1, h3, h4, h5, h6⟩
    · rw [hb] at h3; cases h3
    · rw [hb] at h3; cases h3
      refine ⟨⟨W1, h6⟩, fun blk' hfr ⟨W', hW'⟩ m' hp => hput blk' m' hp ⟨.map (assignV k W' Vs), ?_⟩⟩
      simp only [Holds, setOwned]
      refine ⟨by simpa using hl, .inr ⟨_, _, set_get_self (by have := W_pos x; omega), rfl, ?_⟩⟩
      exact entries_put (by rw [hfr.1]; exact h5) hW' h2 (by rw [hb]; simp)

/-- What is in the memory at an address. -/
theorem addr_read {a : Addr} {ty : Ty} (hpos : 0 < ty.size x) (h : Addressed x root a ty) {m : Block} {V : Val} (hV : Holds x root m 0 V) {c : Cell} (hc : readCell m (.at a) = some c) :
    ∃ blk W, getBlock m a.path = some blk ∧ blk[a.off]? = some c ∧ Holds x ty blk a.off W := by
  simp only [readCell] at hc
  rw [Option.bind_eq_some_iff] at hc
  obtain ⟨blk, hg, hc⟩ := hc
  obtain ⟨⟨W, hW⟩, -⟩ := h.value hpos m V hV blk hg (List.getElem?_eq_some_iff.1 hc).1
  exact ⟨blk, W, hg, hc, hW⟩

/-- A write at an address. -/
theorem addr_write {a : Addr} {ty : Ty} (h : Addressed x root a ty) {m m' b : Block} {V : Val} (hV : Holds x root m 0 V) (hw : writeSeg m (.at a) b = some m') (hb : b.length ≤ ty.size x)
    (hfit : ∀ blk blk' W, Holds x ty blk a.off W → blit blk a.off b = some blk' → ∃ W', Holds x ty blk' a.off W') : ∃ V', Holds x root m' 0 V' := by
  simp only [writeSeg] at hw
  rw [Option.bind_eq_some_iff] at hw
  obtain ⟨blk, hg, hw⟩ := hw
  rw [Option.bind_eq_some_iff] at hw
  obtain ⟨blk', hbl, hw⟩ := hw
  by_cases h0 : b.length = 0
  · have : b = [] := List.length_eq_zero_iff.1 h0
    subst this
    have : blk' = blk := by
      unfold blit at hbl
      split at hbl <;> cases hbl
      simp
    subst this
    rw [Mem.put_get hg] at hw
    cases hw
    exact ⟨V, hV⟩
  · have hle := Mem.blit_isSome.1 ⟨_, hbl⟩
    obtain ⟨⟨W, hW⟩, hput⟩ := h.value (by omega) m V hV blk hg (by omega)
    exact hput blk' ((frm_blit hbl).mono (Nat.le_refl _) (by omega)) (hfit blk blk' W hW hbl) m' hw

end Verif.Proof.Kept

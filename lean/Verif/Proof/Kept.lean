import Verif.Proof.KeptCell
import Verif.Spec.Bounds
/-!
# Whatever the document, the destination stays a value of its type

An invariant of the token loop for types without recursion: the pointer of every frame is nil or addresses a value of the type of the frame, and the memory holds a value of the type of the destination.
-/
namespace Verif.Proof.Kept
open Verif.Model Verif.Spec Verif.Big Verif.Proof Verif.Proof.Val Verif.Proof.Sim
open Verif.Proof.Cover (esize esize_le Static ArrElem upd_root fields_rep copy_back)
open Verif.Proof.Reads (Ready init_dynOK)

/-- The frame of the elements of a slice. -/
def SlcElem (fr : List Frame) (c : Frame) : Prop := ∃ p g, c.parent = some p ∧ fr[p]? = some g ∧ g.type = .slice

/-- The pointer of frame `i` is at a value of its type. -/
def FrameOK (x : Ext) (root : Ty) (fr : List Frame) (i : Nat) (y : Dyn) : Prop :=
  ∀ a, y.dest = .at a → ∃ ty c, Rep x fr ty i ∧ fr[i]? = some c ∧ OK x ty ∧
    ((Static fr c ∧ Addressed x root ⟨a.path, a.off + c.offset⟩ ty) ∨
      (ArrElem fr c ∧ y.offset = min y.len (c.cap - 1) * c.size ∧ 0 < c.cap ∧ ∀ k, k < c.cap → Addressed x root ⟨a.path, a.off + k * c.size⟩ ty) ∨
      (SlcElem fr c ∧ (∃ k, y.offset = k * c.size) ∧ ∀ k, Addressed x root ⟨a.path, a.off + k * c.size⟩ ty))

/-- The memory holds a value of the type. -/
def Fine (x : Ext) (root : Ty) (m : Block) : Prop := ∃ V, Holds x root m 0 V

/-- The invariant. -/
structure Inv (pr : Prog) (root : Ty) (s : St) : Prop where
  frame : ∀ i, FrameOK pr.x root pr.frames i (s.dyn i)
  dest : ∀ a, (s.dyn 0).dest = .at a → a = ⟨[], 0⟩
  ptr : s.pc = .onPtr → ∀ f, pr.frames[s.si]? = some f → f.type = .ptr
  json : s.pc = .onJSON → ∀ f, pr.frames[s.si]? = some f → f.type = .jsonUnmarshaler
  mem : Fine pr.x root s.mem

/-- What a step does. -/
def Good (pr : Prog) (root : Ty) (s : St) : Out → Prop
  | .run s' => Inv pr root s'
  | .done s' => s' = s
  | .err _ _ s' => Fine pr.x root s'.mem
  | .crash => True

variable {pr : Prog} {root : Ty} {s : St}

theorem Inv.spot (h : Inv pr root s) (hd : DynOK pr.frames s.dyn) (ht : Table pr.frames) {a : Addr} (ha : s.p = .at a) :
    ∃ ty f, Rep pr.x pr.frames ty s.si ∧ pr.frames[s.si]? = some f ∧ OK pr.x ty ∧ Addressed pr.x root a ty := by
  unfold St.p at ha
  cases hde : (s.dyn s.si).dest with
  | nil => rw [hde] at ha; simp [Ptr.add] at ha
  | stale => rw [hde] at ha; simp [Ptr.add] at ha
  | «at» a0 =>
    rw [hde] at ha
    simp only [Ptr.add, Ptr.at.injEq] at ha
    obtain ⟨ty, c, hR, hc, hok, hp⟩ := h.frame s.si a0 hde
    refine ⟨ty, c, hR, hc, hok, ?_⟩
    rw [← ha]
    show Addressed pr.x root ⟨a0.path, a0.off + (s.dyn s.si).offset⟩ ty
    have hnr : c.type ≠ .structRecur := fun e => absurd (ht.nr hc e) (by decide)
    rcases hp with ⟨hs, h2⟩ | ⟨-, h1, h2, h3⟩ | ⟨-, ⟨k, hk⟩, h3⟩
    · have : (s.dyn s.si).offset = c.offset := by
        rcases hs with hn | ⟨p, g, hp, hg, ht⟩
        · exact hd.root _ _ hc hnr hn
        · exact hd.off _ _ _ _ hc hnr hp hg (by rcases ht with h | h | h <;> simp [h])
      rw [this]; exact h2
    · rw [h1]; exact h3 _ (by omega)
    · rw [hk]; exact h3 k

/-- Writing a cell that fits the type of the frame. -/
theorem Inv.write (h : Inv pr root s) (hd : DynOK pr.frames s.dyn) (ht : Table pr.frames) {f : Frame} (hf : pr.frames[s.si]? = some f) {b m : Block}
    (hb : b.length = f.size ∨ b.length ≤ esize pr.x f.type) (hw : writeSeg s.mem s.p b = some m)
    (hfit : ∀ (ty : Ty), OK pr.x ty → Rep pr.x pr.frames ty s.si → f.type = ty.etype → ∀ c, b[0]? = some c → CellFits pr.x ty c) : Fine pr.x root m := by
  cases hp : s.p with
  | nil => rw [hp] at hw; simp [writeSeg] at hw
  | stale => rw [hp] at hw; simp [writeSeg] at hw
  | «at» a =>
    obtain ⟨ty, f', hR, hf', hok, hs⟩ := h.spot hd ht hp
    rw [hf] at hf'; cases hf'
    obtain ⟨f', hf', e1, e2⟩ := hR.frame
    rw [hf] at hf'; cases hf'
    rw [hp] at hw
    obtain ⟨V, hV⟩ := h.mem
    refine addr_write hs hV hw ?_ (fun blk blk' W hW hbl => fit_cell (hfit ty hok hR e1) hW hbl)
    rcases hb with hb | hb
    · omega
    · rw [e1] at hb; exact Nat.le_trans hb (esize_le ty)

theorem good_run (h : Inv pr root s) {s' : St} (hm : Fine pr.x root s'.mem) (hdy : s'.dyn = s.dyn) (h1 : s'.pc ≠ .onPtr) (h2 : s'.pc ≠ .onJSON) : Good pr root s (.run s') :=
  ⟨by rw [hdy]; exact h.frame, by rw [hdy]; exact h.dest, fun e => absurd e h1, fun e => absurd e h2, hm⟩

theorem seg_fit {P : Cell → Prop} {n : Nat} {c : Cell} (h : P c) : ∀ c', (seg n c)[0]? = some c' → P c' := by
  intro c' hc
  cases n with
  | zero => simp [seg] at hc
  | succ n => rw [Mem.seg_head _ _ (by omega)] at hc; cases hc; exact h

theorem zeros_fit {P : Cell → Prop} {n : Nat} (h : P .zero) : ∀ c', (zeros n)[0]? = some c' → P c' := by
  intro c' hc
  cases n with
  | zero => simp [zeros] at hc
  | succ n => rw [zeros_get (by omega)] at hc; cases hc; exact h

/-! ## Scalars -/

theorem exec_good (h : Inv pr root s) (hd : DynOK pr.frames s.dyn) (ht : Table pr.frames) {f : Frame} (hf : pr.frames[s.si]? = some f) {t : Token} {a : Act} (ha : ActFit pr.x f.type a) : Good pr root s (exec pr s f t a) := by
  cases a with
  | store n c =>
    simp only [exec]
    split
    · trivial
    · rename_i m hm
      exact good_run h (h.write hd ht hf (.inr (by rw [Mem.seg_length]; exact ha.1)) hm fun ty _ _ e => seg_fit (cellFor_fits (e ▸ ha.2))) rfl (by simp) (by simp)
  | clear n =>
    simp only [exec]
    split
    · trivial
    · rename_i m hm
      exact good_run h (h.write hd ht hf (.inr (by rw [Mem.zeros_length]; exact ha.1)) hm fun ty _ _ e => zeros_fit (zero_fits (e ▸ ha.2.1) (e ▸ ha.2.2))) rfl (by simp) (by simp)
  | nop => exact good_run h h.mem rfl (by simp) (by simp)
  | text b =>
    simp only [exec]
    have ha : f.type = .textUnmarshaler := ha
    split
    · split
      · trivial
      · rename_i m hm
        have hs := h.write hd ht hf (.inl (by simp [fit, zeros])) hm fun ty _ _ e c _ => user_fits (.inr (e ▸ ha)) c
        split
        · exact hs
        · exact good_run h hs rfl (by simp) (by simp)
    · trivial
  | toPtr => exact ⟨h.frame, h.dest, fun _ f' hf' => by rw [show pr.frames[s.si]? = some f' from hf'] at hf; cases hf; exact ha, fun e => by simp at e, h.mem⟩
  | toJSON => exact ⟨h.frame, h.dest, fun e => by simp at e, fun _ f' hf' => by rw [show pr.frames[s.si]? = some f' from hf'] at hf; cases hf; exact ha, h.mem⟩
  | err e => exact h.mem
  | crash => trivial

/-! ## Arrays -/

/-- What the slice header of the frame says about the memory. -/
theorem read_slice (h : Inv pr root s) (hd : DynOK pr.frames s.dyn) (ht : Table pr.frames) {c : Cell} (hc : readCell s.mem s.p = some c) :
    ∃ ty blk off W, Rep pr.x pr.frames ty s.si ∧ OK pr.x ty ∧ (0 < ty.size pr.x → blk[off]? = some c ∧ Holds pr.x ty blk off W) := by
  cases hp : s.p with
  | nil => rw [hp] at hc; simp [readCell] at hc
  | stale => rw [hp] at hc; simp [readCell] at hc
  | «at» a =>
    obtain ⟨ty, f, hR, hf, hok, hs⟩ := h.spot hd ht hp
    rw [hp] at hc
    obtain ⟨V, hV⟩ := h.mem
    by_cases h0 : 0 < ty.size pr.x
    · obtain ⟨blk, W, -, h1, h2⟩ := addr_read h0 hs hV hc
      exact ⟨ty, blk, a.off, W, hR, hok, fun _ => ⟨h1, h2⟩⟩
    · exact ⟨ty, [], 0, .nil, hR, hok, fun e => absurd e h0⟩

theorem sliceOf_good (h : Inv pr root s) (hd : DynOK pr.frames s.dyn) (ht : Table pr.frames) {f : Frame} (hf : pr.frames[s.si]? = some f) {k : SKind} (hk : f.type = .sliceOf k) (t : Token) : Good pr root s (onSliceOf pr s t k) := by
  have hw : ∀ {c : Cell} {m : Block}, writeSeg s.mem s.p (seg (3 * pr.x.W) c) = some m → CellFits pr.x (.sliceOf k) c → Fine pr.x root m := fun {c m} hm hfit =>
    h.write hd ht hf (.inr (by rw [Mem.seg_length, hk]; simp [esize])) hm fun ty _ _ e => seg_fit (by
      rw [hk] at e
      cases ty <;> simp only [Ty.etype] at e <;> first | cases e | skip
      exact hfit)
  have hp := bytes_pos pr.x k
  unfold onSliceOf
  simp only []
  split
  · split
    · trivial
    · rename_i m hm
      exact good_run h (hw hm (karr_fits (a := []) (fun i hi => by simp at hi; omega) (by simp) (Nat.le_refl _))) rfl (by simp) (by simp)
  · split
    · trivial
    · rename_i l c a hh
      have hold : KArr pr.x k a ∧ a.length = c * k.bytes pr.x ∧ l ≤ c := by
        cases hr : readCell s.mem s.p with
        | none => rw [hr] at hh; cases hh
        | some ce =>
          obtain ⟨ty, blk, off, W, hR, -, hrest⟩ := read_slice h hd ht hr
          obtain ⟨f', hf', e1, -⟩ := hR.frame
          rw [hf] at hf'; cases hf'
          rw [hk] at e1
          cases ty <;> simp only [Ty.etype] at e1 <;> first | cases e1 | skip
          obtain ⟨h1, h2⟩ := hrest (by simp only [Ty.size]; have := W_pos pr.x; omega)
          simp only [Holds] at h2
          obtain ⟨es, sp, a', h3, -, h4, h5⟩ := hdr_slice h2.2
          rw [h1, ← hr, hh] at h3
          cases h3
          refine ⟨?_, h4, by simp⟩
          intro i hi
          have hilt : i < (es ++ sp).length := by
            rcases Nat.lt_or_ge i (es ++ sp).length with h | h
            · exact h
            · have := Nat.mul_le_mul_right (k.bytes pr.x) h; omega
          obtain ⟨W, hW⟩ : ∃ W, (es ++ sp)[i]? = some W := ⟨_, List.getElem?_eq_getElem hilt⟩
          have := h5 i W hW
          simp only [Nat.zero_add] at this
          exact ⟨W, this.2⟩
      obtain ⟨hka, hla, hlc⟩ := hold
      split
      · trivial
      · split
        · rename_i hcn
          have hE := sliceElems_k (x := pr.x) pr.src k ((pr.toks.take t.end_).drop (s.ti + 1)) 0 (zeros (t.elements * k.bytes pr.x)) (karr_zeros k _)
          split
          · trivial
          · exact h.mem
          · rename_i arr harr
            rw [harr] at hE
            obtain ⟨hE1, hE2⟩ := hE
            split
            · trivial
            · rename_i m hm
              exact good_run h (hw hm (karr_fits hE1 (by rw [hE2, Mem.zeros_length]) (Nat.le_refl _))) rfl (by simp) (by simp)
        · rename_i hcn
          have hmul := Nat.mul_le_mul_right (k.bytes pr.x) (Nat.le_of_not_lt hcn)
          have hE := sliceElems_k (x := pr.x) pr.src k ((pr.toks.take t.end_).drop (s.ti + 1)) 0 (a.take (t.elements * k.bytes pr.x)) (karr_take hka _)
          have hjoin : ∀ {arr : Block} {n : Nat}, n ≤ c → KArr pr.x k arr → arr.length = (a.take (t.elements * k.bytes pr.x)).length →
              CellFits pr.x (.sliceOf k) (.slice n c (arr ++ a.drop (t.elements * k.bytes pr.x))) := by
            intro arr n hn h1 h2
            rw [List.length_take, Nat.min_eq_left (by omega)] at h2
            refine karr_fits (karr_join hka h1 h2) ?_ hn
            rw [List.length_append, List.length_drop, h2]; omega
          split
          · trivial
          · rename_i i e arr harr
            rw [harr] at hE
            split
            · trivial
            · rename_i m hm
              exact hw hm (hjoin hlc hE.1 hE.2)
          · rename_i arr harr
            rw [harr] at hE
            split
            · trivial
            · rename_i m hm
              exact good_run h (hw hm (hjoin (by omega) hE.1 hE.2)) rfl (by simp) (by simp)

/-- Changing one frame. -/
theorem upd_frame {x : Ext} {fr : List Frame} {d : Nat → Dyn} (h : ∀ i, FrameOK x root fr i (d i)) {k : Nat} {g : Dyn → Dyn} (hg : FrameOK x root fr k (g (d k))) : ∀ i, FrameOK x root fr i (upd d k g i) := by
  intro i
  by_cases hi : i = k
  · subst hi; simp only [upd, if_pos]; exact hg
  · simp only [upd, if_neg hi]; exact h i

theorem array_good (h : Inv pr root s) (hd : DynOK pr.frames s.dyn) (ht : Table pr.frames) {f : Frame} (hf : pr.frames[s.si]? = some f) (t : Token) : Good pr root s (onArray pr s f t) := by
  have hw : ∀ (n : Nat) {c : Cell} {m : Block}, n ≤ esize pr.x f.type → (∀ ty : Ty, OK pr.x ty → Rep pr.x pr.frames ty s.si → f.type = ty.etype → CellFits pr.x ty c) → writeSeg s.mem s.p (seg n c) = some m → Fine pr.x root m := fun n c m h3 hfit hm =>
    h.write hd ht hf (.inr (by rw [Mem.seg_length]; exact h3)) hm fun ty h1 h2 e => seg_fit (hfit ty h1 h2 e)
  unfold onArray
  simp only []
  split
  case h_1 hty =>
    split
    · trivial
    · exact h.mem
    · split
      · trivial
      · rename_i v _ _ _ _ hm
        exact good_run h (hw _ (c := .any v) (by rw [hty]; exact Nat.le_refl _) (fun ty _ _ e => cellFor_fits (by rw [← e, hty]; exact ⟨v, rfl⟩)) hm) rfl (by simp) (by simp)
  case h_2 => exact good_run h h.mem rfl (by simp) (by simp)
  case h_3 hty =>
    split
    · exact good_run h h.mem rfl (by simp) (by simp)
    · refine ⟨upd_frame h.frame ?_, ?_, fun e => ?_, fun e => ?_, h.mem⟩
      · intro a ha
        obtain ⟨ty, f', hR, hf', hok, hs⟩ := h.spot hd ht (a := a) ha
        rw [hf] at hf'; cases hf'
        obtain ⟨f', hf', e1, -⟩ := hR.frame
        rw [hf] at hf'; cases hf'
        rw [hty] at e1
        cases ty <;> simp only [Ty.etype] at e1 <;> first | cases e1 | skip
        rename_i n e
        obtain ⟨-, hn, ⟨c, hc, hcp, hcap⟩, hre⟩ := hR
        obtain ⟨c', hc', -, hsz⟩ := hre.frame
        rw [hc] at hc'; cases hc'
        simp only [OK] at hok
        refine ⟨e, c, hre, hc, hok, .inr (.inl ⟨⟨_, f, hcp, hf, hty⟩, by simp, by omega, fun k hk => ?_⟩)⟩
        rw [hsz]
        exact addr_elem hok (by omega) hs
      · show ∀ a, (upd _ _ _ 0).dest = .at a → _
        rw [upd_root (Nat.succ_ne_zero _)]; exact h.dest
      · exact absurd (h.ptr e f hf) (by rw [hty]; simp)
      · exact absurd (h.json e f hf) (by rw [hty]; simp)
  case h_4 hty =>
    split
    · trivial
    · rename_i fe hfe
      split
      · split
        · trivial
        · refine good_run h (hw _ (by rw [hty]; exact Nat.le_refl _) (fun ty _ _ e => ?_) (by assumption)) rfl (by simp) (by simp)
          rw [hty] at e
          cases ty <;> simp only [Ty.etype] at e <;> first | cases e | skip
          exact empty_fits
      · split
        · rename_i l c a ad hh hp
          split
          · trivial
          · rename_i m hm
            obtain ⟨ty, f', hR, hf', hok, hs⟩ := h.spot hd ht hp
            rw [hf] at hf'; cases hf'
            obtain ⟨f', hf', e1, -⟩ := hR.frame
            rw [hf] at hf'; cases hf'
            rw [hty] at e1
            cases ty <;> simp only [Ty.etype] at e1 <;> first | cases e1 | skip
            rename_i e
            obtain ⟨-, ⟨c', hc', hcp, -⟩, hre⟩ := hR
            rw [hfe] at hc'; cases hc'
            obtain ⟨c', hc', -, hsz⟩ := hre.frame
            rw [hfe] at hc'; cases hc'
            simp only [OK] at hok
            refine ⟨upd_frame h.frame ?_, ?_, fun e => ?_, fun e => ?_, ?_⟩
            · intro a' ha'
              cases ha'
              refine ⟨e, fe, hre, hfe, hok, .inr (.inr ⟨⟨_, f, hcp, hf, hty⟩, ⟨0, by simp⟩, fun k => ?_⟩)⟩
              rw [hsz]
              exact addr_arr hok hs k
            · show ∀ a, (upd _ _ _ 0).dest = .at a → _
              rw [upd_root (Nat.succ_ne_zero _)]; exact h.dest
            · exact absurd (h.ptr e f hf) (by rw [hty]; simp)
            · exact absurd (h.json e f hf) (by rw [hty]; simp)
            · rw [hp] at hh hm
              show Fine pr.x root m
              obtain ⟨V, hV⟩ := h.mem
              cases hr : readCell s.mem (.at ad) with
              | none => rw [hr] at hh; cases hh
              | some ce =>
                have hW3 : 0 < (Ty.slice e).size pr.x := by simp only [Ty.size]; have := W_pos pr.x; omega
                obtain ⟨blk, W, -, h1, h2⟩ := addr_read hW3 hs hV hr
                simp only [Holds] at h2
                obtain ⟨es, sp, a', h3, h3', h4, h5⟩ := hdr_slice h2.2
                rw [h1, ← hr, hh] at h3
                cases h3
                obtain ⟨base, sp', a2, -, hb, hg, hl2, hh2⟩ := grow_prep (n := t.elements) (cp := fe.type.isElemComposite) (loc_holds (x := pr.x) hok) (fun n off hle => holds_zeros e hok hle) h3' h4 h5
                rw [hsz, hg] at hm
                refine addr_write hs hV hm (by rw [Mem.seg_length]; simp [Ty.size]) (fun blk blk' W hW hbl => fit_cell (seg_fit ?_) hW hbl)
                intro blk off hlen hc
                refine ⟨.slice base sp', ?_⟩
                simp only [Holds]
                refine ⟨hlen, .inr ⟨a2, base, sp', by rw [hc, hb], rfl, hl2, fun i W hi => ?_⟩⟩
                have := hh2 i W hi
                simpa using this
        · trivial
  case h_5 hty => exact absurd (ht.nr hf hty) (by decide)
  case h_6 hty =>
    split
    · trivial
    · refine good_run h (hw _ (by rw [hty]; exact Nat.le_refl _) (fun ty _ _ e => ?_) (by assumption)) rfl (by simp) (by simp)
      rw [hty] at e
      cases ty <;> simp only [Ty.etype] at e <;> first | cases e | skip
      exact emptyStructs_fits _
  case h_7 k hty => exact sliceOf_good h hd ht hf hty t
  case h_8 hty => exact ⟨h.frame, h.dest, fun _ f' hf' => by rw [show pr.frames[s.si]? = some f' from hf'] at hf; cases hf; exact hty, fun e => by simp at e, h.mem⟩
  case h_9 hty => exact ⟨h.frame, h.dest, fun e => by simp at e, fun _ f' hf' => by rw [show pr.frames[s.si]? = some f' from hf'] at hf; cases hf; exact hty, h.mem⟩
  case h_10 => exact h.mem


/-! ## Objects and keys -/

theorem ensure_fine (h : Inv pr root s) (hd : DynOK pr.frames s.dyn) (ht : Table pr.frames) {f : Frame} (hf : pr.frames[s.si]? = some f) (hk : f.type = .map) {m : Block} (hm : ensureMap pr.x.W s.mem s.p = some m) : Fine pr.x root m := by
  unfold ensureMap at hm
  split at hm
  · cases hm
  · cases hm; exact h.mem
  · refine h.write hd ht hf (.inr (by rw [Mem.seg_length, hk]; simp [esize])) hm fun ty _ _ e => seg_fit ?_
    rw [hk] at e
    cases ty <;> simp only [Ty.etype] at e <;> first | cases e | skip
    exact map_fits (Vs := []) trivial

theorem object_good (h : Inv pr root s) (hd : DynOK pr.frames s.dyn) (ht : Table pr.frames) {f : Frame} (hf : pr.frames[s.si]? = some f) (hpc : s.pc = .loop) (t : Token) : Good pr root s (onObject pr s f t) := by
  have hw : ∀ (n : Nat) {c : Cell} {m : Block}, n ≤ esize pr.x f.type → (∀ ty : Ty, OK pr.x ty → Rep pr.x pr.frames ty s.si → f.type = ty.etype → CellFits pr.x ty c) → writeSeg s.mem s.p (seg n c) = some m → Fine pr.x root m := fun n c m h3 hfit hm =>
    h.write hd ht hf (.inr (by rw [Mem.seg_length]; exact h3)) hm fun ty h1 h2 e => seg_fit (hfit ty h1 h2 e)
  unfold onObject
  simp only []
  split
  case h_1 => exact good_run h h.mem rfl (by simp) (by simp)
  case h_2 hty =>
    split
    · trivial
    · exact h.mem
    · split
      · trivial
      · rename_i v _ _ _ _ hm
        exact good_run h (hw _ (c := .any v) (by rw [hty]; exact Nat.le_refl _) (fun ty _ _ e => cellFor_fits (by rw [← e, hty]; exact ⟨v, rfl⟩)) hm) rfl (by simp) (by simp)
  case h_3 hty => exact absurd (ht.nr hf hty) (by decide)
  case h_4 hty => exact absurd (ht.nr hf hty) (by decide)
  case h_8 hty => exact absurd (ht.nr hf hty) (by decide)
  case h_5 hty =>
    split
    · trivial
    · rename_i m hm
      have := ensure_fine h hd ht hf hty hm
      split
      · exact good_run h this rfl (by simp) (by simp)
      · exact good_run h this rfl (by simp [hpc]) (by simp [hpc])
  case h_6 hty =>
    have hes : ∀ {es : List (Key × Block)}, Entries pr.x es → ∀ ty : Ty, OK pr.x ty → Rep pr.x pr.frames ty s.si → f.type = ty.etype → CellFits pr.x ty (.map es) := by
      intro es hes ty _ _ e
      rw [hty] at e
      cases ty <;> simp only [Ty.etype] at e <;> first | cases e | skip
      exact mapSS_fits hes
    have h0 : Entries pr.x [] := ⟨[], trivial⟩
    split
    · split
      · trivial
      · rename_i m hm
        exact good_run h (hw _ (by rw [hty]; exact Nat.le_refl _) (hes h0) hm) rfl (by simp) (by simp)
    · split
      · trivial
      · split
        · trivial
        · exact h.mem
        · rename_i es he
          split
          · trivial
          · rename_i m hm
            exact good_run h (hw _ (by rw [hty]; exact Nat.le_refl _) (hes (mapSS_entries _ _ _ _ h0 he)) hm) rfl (by simp) (by simp)
  case h_7 hty =>
    split
    · exact good_run h h.mem rfl (by simp) (by simp)
    · have key : ∀ q ∈ f.fields, ∀ a, s.p = .at a → 0 < q.2 ∧ ∀ y : Dyn, FrameOK pr.x root pr.frames q.2 { y with dest := s.p } := by
        intro q hq a ha
        obtain ⟨ty, f', hR, hf', hok, hs⟩ := h.spot hd ht (a := a) ha
        rw [hf] at hf'; cases hf'
        obtain ⟨f', hf', e1, -⟩ := hR.frame
        rw [hf] at hf'; cases hf'
        rw [hty] at e1
        cases ty <;> simp only [Ty.etype] at e1 <;> first | cases e1 | skip
        rename_i n fs
        obtain ⟨f', hf', -, -, hfs⟩ := hR
        rw [hf] at hf'; cases hf'
        obtain ⟨k, fl, h1, h2, ⟨c, hc, hcp, hco⟩, h4⟩ := fields_rep hfs q hq
        refine ⟨by omega, fun y a' ha' => ?_⟩
        rw [show s.p = .at a' from ha'] at ha
        cases ha
        simp only [OK] at hok
        refine ⟨fl.2.2, c, h4, hc, (okF_get hok h2).2, .inl ⟨.inr ⟨_, f, hcp, hf, .inl hty⟩, ?_⟩⟩
        rw [hco]
        exact addr_field hok h2 hs
      refine ⟨?_, ?_, fun e => absurd (hpc.symm.trans e) (by simp), fun e => absurd (hpc.symm.trans e) (by simp), h.mem⟩
      · intro i
        show FrameOK _ _ _ i (setFieldDests s.p f.fields s.dyn i)
        rw [setFieldDests_eq]
        split
        · rename_i hi
          obtain ⟨q, hq, rfl⟩ := List.mem_map.1 hi
          intro a ha
          exact (key q hq a ha).2 _ a ha
        · exact h.frame i
      · show ∀ a, (setFieldDests s.p f.fields s.dyn 0).dest = .at a → _
        rw [setFieldDests_eq]
        split
        · rename_i hi
          obtain ⟨q, hq, hq0⟩ := List.mem_map.1 hi
          intro a ha
          have := (key q hq a ha).1; omega
        · exact h.dest
  case h_9 hty => exact ⟨h.frame, h.dest, fun _ f' hf' => by rw [show pr.frames[s.si]? = some f' from hf'] at hf; cases hf; exact hty, fun e => by simp at e, h.mem⟩
  case h_10 hty => exact ⟨h.frame, h.dest, fun e => by simp at e, fun _ f' hf' => by rw [show pr.frames[s.si]? = some f' from hf'] at hf; cases hf; exact hty, h.mem⟩
  case h_11 => exact h.mem

theorem key_good (h : Inv pr root s) (hd : DynOK pr.frames s.dyn) (ht : Table pr.frames) {f : Frame} (hf : pr.frames[s.si]? = some f) (hpc : s.pc = .loop) (t : Token) : Good pr root s (onKey pr s f t) := by
  have map : f.type = .map → Good pr root s (onKey pr s f t) := by
    intro hty
    unfold onKey
    rw [hty]
    simp only []
    split
    · rename_i key fk ad _ _ hp
      obtain ⟨ty, f', hR, hf', hok, hs⟩ := h.spot hd ht hp
      rw [hf] at hf'; cases hf'
      obtain ⟨f', hf', e1, -⟩ := hR.frame
      rw [hf] at hf'; cases hf'
      rw [hty] at e1
      cases ty <;> simp only [Ty.etype] at e1 <;> first | cases e1 | skip
      rename_i kt e
      obtain ⟨⟨f', hf', -, -, hmv, -⟩, -, ⟨c, hc, hcp, hco⟩, hre⟩ := hR
      rw [hf] at hf'; cases hf'
      simp only [OK] at hok
      obtain ⟨V, hV⟩ := h.mem
      have hMpos : 0 < (Ty.map kt e).size pr.x := by simp only [Ty.size]; exact W_pos _
      split
      · trivial
      · exact h.mem
      · rename_i k? _
        split
        · trivial
        · rename_i m pNew hmp
          have hm : Fine pr.x root m ∧ (pNew = .nil ∨ ∃ k, pNew = .at (ad.into (.entry k))) := by
            cases k? with
            | none => simp at hmp; rw [← hmp.1, ← hmp.2]; exact ⟨h.mem, .inl rfl⟩
            | some k =>
              simp only [Option.map_eq_some_iff] at hmp
              obtain ⟨m', h1, h2⟩ := hmp
              cases h2
              refine ⟨?_, .inr ⟨k, rfl⟩⟩
              unfold mapAssign at h1
              split at h1
              · cases h1
              · unfold assignEntry at h1
                split at h1
                · rename_i es hes
                  split at h1
                  · cases h1; exact h.mem
                  · rename_i hlk
                    cases hr : readCell s.mem (.at ad) with
                    | none => rw [hr] at hes; cases hes
                    | some ce =>
                      obtain ⟨blk, W, -, h3, h4⟩ := addr_read hMpos hs hV hr
                      have hce : ce = .map es := by
                        rw [hr] at hes
                        cases ce <;> simp [mapHdr] at hes
                        rw [hes]
                      subst hce
                      simp only [Holds] at h4
                      rcases h4.2 with ⟨h5, -⟩ | ⟨es', Vs, h5, -, h6⟩
                      · rw [h3] at h5; cases h5
                      · rw [h3] at h5; cases h5
                        refine addr_write hs hV h1 (by rw [Mem.seg_length]; simp [Ty.size]) (fun blk blk' W hW hbl => fit_cell (seg_fit ?_) hW hbl)
                        rw [hmv]
                        exact map_fits (entries_add (Mem.zeros_length _) (holds_zeros e hok (by omega)) h6 hlk)
                · cases h1
          rw [if_neg (by simp)]
          have hinv : ∀ (s' : St), s'.dyn = (upd s.dyn (s.si + 2) fun y => { y with dest := pNew }) → s'.pc = s.pc → Fine pr.x root s'.mem → Inv pr root s' := by
            intro s' hdy hpc' hmem
            refine ⟨?_, ?_, fun e => absurd (hpc.symm.trans (hpc'.symm.trans e)) (by simp), fun e => absurd (hpc.symm.trans (hpc'.symm.trans e)) (by simp), hmem⟩
            · rw [hdy]
              refine upd_frame h.frame ?_
              intro a ha
              rcases hm.2 with hn | ⟨k, hk⟩
              · rw [show pNew = .at a from ha] at hn; cases hn
              · rw [show pNew = .at a from ha] at hk
                cases hk
                refine ⟨e, c, hre, hc, hok, .inl ⟨.inr ⟨_, f, hcp, hf, .inr (.inl hty)⟩, ?_⟩⟩
                rw [hco]
                exact addr_entry hs k
            · rw [hdy, upd_root (by omega)]; exact h.dest
          split
          · trivial
          · split
            · split
              · trivial
              · rename_i m2 hm2
                refine hinv _ rfl rfl ?_
                show Fine pr.x root m2
                rcases hm.2 with hn | ⟨k, hk⟩
                · rw [hn] at hm2; simp [writeSeg] at hm2
                · rw [hk] at hm2
                  obtain ⟨V1, hV1⟩ := hm.1
                  refine addr_write (addr_entry hs k) hV1 hm2 (by rw [Mem.zeros_length, hmv]; exact Nat.le_refl _) (fun blk blk' W hW hbl => ⟨zeroV pr.x e, ?_⟩)
                  have hl := holds_len hW
                  refine holds_zeros_at hok (by rw [Mem.blit_length hbl]; exact hl) (fun j hj1 hj2 => ?_)
                  rw [Mem.blit_get_in hbl hj1 (by rw [Mem.zeros_length, hmv]; exact hj2)]
                  exact zeros_get (by omega)
            · exact hinv _ rfl rfl hm.1
    · trivial
  by_cases hty : f.type = .map
  · exact map hty
  · unfold onKey
    split
    case h_3 e => exact absurd e hty
    case h_4 e => exact absurd (ht.nr hf e) (by decide)
    case h_5 => exact h.mem
    all_goals
      repeat' split
      all_goals first
        | trivial
        | exact h.mem
        | exact good_run h h.mem rfl (by simp [hpc]) (by simp [hpc])

/-! ## Ends -/

theorem objectEnd_good (h : Inv pr root s) (ht : Table pr.frames) {f : Frame} (hf : pr.frames[s.si]? = some f) : Good pr root s (onObjectEnd pr s f) := by
  unfold onObjectEnd
  simp only []
  split
  case h_2 hty => exact absurd (ht.nr hf hty) (by decide)
  all_goals exact good_run h (h.mem) rfl (by simp) (by simp)

theorem arrayEnd_good (h : Inv pr root s) (ht : Table pr.frames) {f : Frame} (hf : pr.frames[s.si]? = some f) : Good pr root s (onArrayEnd pr s f) := by
  unfold onArrayEnd
  simp only []
  split
  case isTrue hty => exact absurd (ht.nr hf hty) (by decide)
  case isFalse => exact good_run h (h.mem) rfl (by simp) (by simp)

theorem recurObjEnd_good (h : Inv pr root s) (hd : DynOK pr.frames s.dyn) (ht : Table pr.frames) (f : Frame) : Good pr root s (onRecurObjEnd pr s f) := by
  unfold onRecurObjEnd
  rw [hd.rs s.si (fun f' hf' hc => absurd (ht.nr hf' hc) (by decide))]
  exact good_run h (h.mem) rfl (by simp) (by simp)

theorem valEnd_good (h : Inv pr root s) {f : Frame} (hf : pr.frames[s.si]? = some f) : Good pr root s (onValEnd pr s f) := by
  have root0 : ∀ {g : Dyn → Dyn}, (∀ y, (g y).dest = y.dest) → ∀ a, (upd s.dyn s.si g 0).dest = .at a → a = ⟨[], 0⟩ := by
    intro g hg a ha
    refine h.dest a ?_
    by_cases h0 : s.si = 0
    · rw [h0] at ha; simpa [upd, hg] using ha
    · simpa [upd, Ne.symm h0] using ha
  unfold onValEnd
  simp only []
  split
  · exact good_run h h.mem rfl (by simp) (by simp)
  · rename_i p hp
    split
    · trivial
    · rename_i fc hfc
      split
      case h_1 => exact good_run h h.mem rfl (by simp) (by simp)
      case h_2 hty =>
        have hlen : (upd s.dyn s.si (fun y => { y with len := y.len + 1 }) s.si).len = (s.dyn s.si).len + 1 := by simp [upd]
        have noslc : ¬ SlcElem pr.frames f := by
          rintro ⟨p', g, hp', hg, hty'⟩
          rw [hp] at hp'; cases hp'
          rw [hfc] at hg; cases hg
          rw [hty] at hty'; cases hty'
        split
        · rename_i hge
          rw [hlen] at hge
          split
          · trivial
          · refine ⟨upd_frame h.frame ?_, root0 (fun _ => rfl), fun e => by simp at e, fun e => by simp at e, h.mem⟩
            intro a ha
            obtain ⟨ty, c, hR, hc, hok, h2⟩ := h.frame s.si a ha
            refine ⟨ty, c, hR, hc, hok, ?_⟩
            rcases h2 with ⟨hst, hsub⟩ | ⟨hae, ho, hcap, hsub⟩ | ⟨hsl, -⟩
            · exact .inl ⟨hst, hsub⟩
            · rw [hf] at hc; cases hc
              refine .inr (.inl ⟨hae, ?_, hcap, hsub⟩)
              show (s.dyn s.si).offset = min ((s.dyn s.si).len + 1) (f.cap - 1) * f.size
              rw [ho]
              congr 1
              omega
            · rw [hf] at hc; cases hc; exact absurd hsl noslc
        · rename_i hlt
          rw [hlen] at hlt
          refine ⟨?_, ?_, fun e => by simp at e, fun e => by simp at e, h.mem⟩
          · intro i
            by_cases hi : i = s.si
            · subst hi
              intro a ha
              have ha' : (s.dyn s.si).dest = .at a := by simpa [upd] using ha
              obtain ⟨ty, c, hR, hc, hok, h2⟩ := h.frame s.si a ha'
              refine ⟨ty, c, hR, hc, hok, ?_⟩
              rcases h2 with ⟨hst, hsub⟩ | ⟨hae, ho, hcap, hsub⟩ | ⟨hsl, -⟩
              · exact .inl ⟨hst, hsub⟩
              · rw [hf] at hc; cases hc
                refine .inr (.inl ⟨hae, ?_, hcap, hsub⟩)
                simp only [upd, if_pos]
                rw [ho]
                rw [show min (s.dyn s.si).len (f.cap - 1) = (s.dyn s.si).len by omega, show min ((s.dyn s.si).len + 1) (f.cap - 1) = (s.dyn s.si).len + 1 by omega, Nat.add_mul, Nat.one_mul]
              · rw [hf] at hc; cases hc; exact absurd hsl noslc
            · show FrameOK _ _ _ i (upd _ _ _ i)
              simp only [upd, if_neg hi]
              exact h.frame i
          · intro a ha
            refine h.dest a ?_
            by_cases h0 : s.si = 0
            · rw [h0] at ha; simpa [upd] using ha
            · simpa [upd, Ne.symm h0] using ha
      case h_3 hty =>
        refine ⟨upd_frame h.frame ?_, root0 (fun _ => rfl), fun e => by simp at e, fun e => by simp at e, h.mem⟩
        intro a ha
        obtain ⟨ty, c, hR, hc, hok, h2⟩ := h.frame s.si a ha
        refine ⟨ty, c, hR, hc, hok, ?_⟩
        rw [hf] at hc; cases hc
        rcases h2 with ⟨hst, hsub⟩ | ⟨⟨p', g, hp', hg, hty'⟩, -⟩ | ⟨hsl, ⟨k, hk⟩, hsub⟩
        · exact .inl ⟨hst, hsub⟩
        · rw [hp] at hp'; cases hp'
          rw [hfc] at hg; cases hg
          rw [hty] at hty'; cases hty'
        · refine .inr (.inr ⟨hsl, ⟨k + 1, ?_⟩, hsub⟩)
          show (s.dyn s.si).offset + f.size = _
          rw [hk, Nat.add_mul, Nat.one_mul]
      all_goals exact good_run h h.mem rfl (by simp) (by simp)

theorem ptr_good (h : Inv pr root s) (hd : DynOK pr.frames s.dyn) (ht : Table pr.frames) (hpc : s.pc = .onPtr) : Good pr root s (onPtr pr s) := by
  unfold onPtr
  split
  · trivial
  · rename_i fe hfe
    split
    · trivial
    · rename_i m hm
      cases hp : s.p with
      | nil => rw [hp] at hm; simp [writeSeg] at hm
      | stale => rw [hp] at hm; simp [writeSeg] at hm
      | «at» ad =>
        obtain ⟨ty, f, hR, hf, hok, hs⟩ := h.spot hd ht hp
        have hty := h.ptr hpc f hf
        obtain ⟨f', hf', e1, -⟩ := hR.frame
        rw [hf] at hf'; cases hf'
        rw [hty] at e1
        cases ty <;> simp only [Ty.etype] at e1 <;> first | cases e1 | skip
        rename_i e
        obtain ⟨-, ⟨c, hc, hcp, hco⟩, hre⟩ := hR
        rw [hfe] at hc; cases hc
        obtain ⟨c', hc', -, hsz⟩ := hre.frame
        rw [hfe] at hc'; cases hc'
        simp only [OK] at hok
        have hfine : Fine pr.x root m := by
          rw [hp] at hm
          obtain ⟨V, hV⟩ := h.mem
          refine addr_write hs hV hm (by rw [Mem.seg_length]; simp [Ty.size]) (fun blk blk' W hW hbl => fit_cell (seg_fit ?_) hW hbl)
          rw [hsz]; exact ptr_fits hok
        split
        · exact good_run h hfine rfl (by simp) (by simp)
        · refine ⟨upd_frame h.frame ?_, ?_, fun e => by simp at e, fun e => by simp at e, hfine⟩
          · intro a ha
            cases ha
            refine ⟨e, fe, hre, hfe, hok, .inl ⟨.inr ⟨_, f, hcp, hf, .inr (.inr hty)⟩, ?_⟩⟩
            rw [hco]
            exact addr_deref hs
          · show ∀ a, (upd _ _ _ 0).dest = .at a → _
            rw [upd_root (Nat.succ_ne_zero _)]; exact h.dest

theorem json_good (h : Inv pr root s) (hd : DynOK pr.frames s.dyn) (ht : Table pr.frames) (hpc : s.pc = .onJSON) {f : Frame} (hf : pr.frames[s.si]? = some f) (t : Token) : Good pr root s (onJSONUnmarshaler pr s f t) := by
  have hty := h.json hpc f hf
  unfold onJSONUnmarshaler
  split
  · simp only []
    split
    · trivial
    · rename_i m hm
      have hs := h.write hd ht hf (.inl (by simp [fit, zeros])) hm fun ty _ _ e c _ => user_fits (.inl (e ▸ hty)) c
      split
      · exact hs
      · exact good_run h hs rfl (by simp) (by simp)
  · trivial

theorem step_good (h : Inv pr root s) (hd : DynOK pr.frames s.dyn) (ht : Table pr.frames) : Good pr root s (step pr s) := by
  unfold step
  split
  · rename_i hpc
    split
    · rfl
    · split
      · trivial
      · rename_i f hf
        unfold dispatch
        split
        case h_1 => exact exec_good h hd ht hf (onBool_fit _ _)
        case h_2 => exact exec_good h hd ht hf (onBool_fit _ _)
        case h_3 =>
          split
          · trivial
          · exact exec_good h hd ht hf (onInteger_fit _ _)
        case h_4 =>
          split
          · trivial
          · exact exec_good h hd ht hf (onNumber_fit _ _)
        case h_5 =>
          split
          · trivial
          · exact exec_good h hd ht hf (onString_fit _ _)
        case h_6 => exact exec_good h hd ht hf (onNull_fit (ht.nr hf rfl))
        case h_7 => exact array_good h hd ht hf _
        case h_8 => exact object_good h hd ht hf hpc _
        case h_9 => exact key_good h hd ht hf hpc _
        case h_10 => exact objectEnd_good h ht hf
        case h_11 => exact arrayEnd_good h ht hf
  · split
    · trivial
    · exact recurObjEnd_good h hd ht _
  · split
    · trivial
    · rename_i hf
      exact valEnd_good h hf
  · rename_i hpc; exact ptr_good h hd ht hpc
  · rename_i hpc
    split
    · rename_i hf; exact json_good h hd ht hpc hf _
    · trivial

theorem run_good (ht : Table pr.frames) : ∀ (n : Nat) {s : St}, Inv pr root s → DynOK pr.frames s.dyn →
    match run pr n s with
    | .run s' | .done s' => Inv pr root s'
    | .err _ _ s' => Fine pr.x root s'.mem
    | .crash => True := by
  intro n
  induction n with
  | zero => intro s h hd; exact h
  | succ n ih =>
    intro s h hd
    rw [run]
    have h1 := step_good h hd ht
    have h2 := step_dynOK ht hd
    cases hs : step pr s with
    | run s' =>
      rw [hs] at h1 h2
      exact ih h1 h2
    | done s' =>
      rw [hs] at h1
      have h1 : s' = s := h1
      subst h1
      exact h
    | err i e s' => rw [hs] at h1; exact h1
    | crash => trivial

/-- The invariant holds at the start. -/
theorem init_inv {x : Ext} {ty : Ty} {d : Decoder} (hrdy : Ready x ty d) (hok : OK x ty) (hnil : ∀ i, (d.dyn i).dest = .nil) {src : Bytes} {v : JVal} {mem : Block} (hmem : Fine x ty mem) {o : Option Options} :
    Inv (callOf x d src v o) ty (initSt d.dyn mem) := by
  refine ⟨?_, ?_, fun e => by simp [initSt] at e, fun e => by simp [initSt] at e, hmem⟩
  · refine upd_frame (fun i a ha => by rw [hnil i] at ha; cases ha) ?_
    intro a ha
    cases ha
    obtain ⟨f, hf, hp, ho⟩ := hrdy.root
    refine ⟨ty, f, hrdy.rep, hf, hok, .inl ⟨.inl hp, ?_⟩⟩
    rw [ho]
    exact addr_root
  · intro a ha
    simp [initSt, upd] at ha
    exact ha.symm

/-- Whatever the input, `Decode` leaves a value of the type of the destination. -/
theorem decode_fine {x : Ext} {ty : Ty} {d : Decoder} (hrdy : Ready x ty d) (hok : OK x ty) (hnil : ∀ i, (d.dyn i).dest = .nil) {src : Bytes} {doc : Except (Nat × Nat) JVal} {mem : Block} (hmem : Fine x ty mem) {o : Option Options} {r : DecodeRes}
    (hr : decode x d src doc (some mem) o = some r) : ∃ mem', r.mem = some mem' ∧ Fine x ty mem' := by
  cases doc with
  | error ic =>
    obtain ⟨i, c⟩ := ic
    simp only [decode] at hr
    split at hr <;> cases hr
    exact ⟨mem, rfl, hmem⟩
  | ok v =>
    have hinv := init_inv hrdy hok hnil (src := src) (v := v) hmem (o := o)
    simp only [callOf] at hinv
    have hgood := run_good hrdy.table (fuelFor { x := x, src := src, toks := flatten 0 v, frames := d.frames, options := o, epoch := d.calls }) hinv (init_dynOK hrdy.dyn mem)
    simp only [decode] at hr
    split at hr
    · cases hr
    · rename_i f0 fs hfr
      split at hr
      · rename_i he
        rw [he] at hgood
        cases hr
        exact ⟨_, rfl, hgood⟩
      · rename_i s' he
        rw [he] at hgood
        split at hr
        · cases hr
        · rename_i m hm
          cases hr
          rw [Option.bind_eq_some_iff] at hm
          obtain ⟨b, h1, h2⟩ := hm
          refine ⟨m, rfl, ?_⟩
          cases hde : (s'.dyn 0).dest with
          | nil => rw [hde] at h1; simp [readSeg] at h1
          | stale => rw [hde] at h1; simp [readSeg] at h1
          | «at» a =>
            rw [hde, hgood.dest a hde] at h1
            rw [copy_back h1 h2]
            exact hgood.mem
      · cases hr

/-- The invariant holds at every moment. -/
theorem during_inv {s₀ : St} (ht : Table pr.frames) (h₀ : Inv pr root s₀) (hd₀ : DynOK pr.frames s₀.dyn) (h : During pr s₀ s) : Inv pr root s ∧ DynOK pr.frames s.dyn := by
  induction h with
  | start => exact ⟨h₀, hd₀⟩
  | next _ hs ih =>
    have h1 := step_good ih.1 ih.2 ht
    have h2 := step_dynOK ht ih.2
    rw [hs] at h1 h2
    exact ⟨h1, h2⟩

/-- Without slices the value of the current frame lies inside its block. -/
theorem Inv.inBounds (h : Inv pr root s) (hd : DynOK pr.frames s.dyn) (ht : Table pr.frames) (hn : root.noSlices = true) : InBounds pr s := by
  intro f a blk hf ha hg
  obtain ⟨ty, f', hR, hf', -, hs⟩ := h.spot hd ht ha
  obtain ⟨f', hf', -, hsz⟩ := hR.frame
  rw [hf] at hf'; cases hf'
  obtain ⟨V, hV⟩ := h.mem
  rw [hsz]
  exact hs.inside hn _ V hV blk hg

end Verif.Proof.Kept

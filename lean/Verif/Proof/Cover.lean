import Verif.Spec.Covered
import Verif.Proof.Reads
/-!
# Whatever the document, only bytes of known fields are written

An invariant of the token loop for types without recursion: the destination pointer of every frame is nil, or at a place of the type of the frame within the destination, or in memory reached through a pointer, slice or map stored at such a place.
-/
namespace Verif.Proof.Cover
open Verif.Model Verif.Spec Verif.Big Verif.Proof Verif.Proof.Sim Verif.Proof.Reads

/-- Bytes outside `C` are the same. -/
def Same (C : Nat → Prop) (m m' : Block) : Prop := ∀ j, ¬ C j → m'[j]? = m[j]?

/-- A value of the type at the offset has its bytes in `C`. -/
def Sub (x : Ext) (C : Nat → Prop) (ty : Ty) (off : Nat) : Prop := ∀ j, Covered x ty off j → C j

/-- An address of a value of the type. -/
structure Spot (x : Ext) (C : Nat → Prop) (ty : Ty) (a : Addr) : Prop where
  here : a.path = [] → Sub x C ty a.off
  below : ∀ st rest, a.path = st :: rest → C st.off

variable {x : Ext} {C : Nat → Prop}

theorem covF_get {x : Ext} : ∀ {fs : List (Bytes × Nat × Ty)} {k : Nat} {f : Bytes × Nat × Ty} {off j : Nat}, fs[k]? = some f → Covered x f.2.2 (off + f.2.1) j → CoveredF x fs off j
  | (_, _, _) :: fs, 0, f, off, j, h, hc => by simp at h; subst h; exact .inl hc
  | (_, _, _) :: fs, k + 1, f, off, j, h, hc => .inr (covF_get (by simpa using h) hc)

theorem Same.refl (m : Block) : Same C m m := fun _ _ => rfl

theorem Same.trans {a b c : Block} (h1 : Same C a b) (h2 : Same C b c) : Same C a c := fun j hj => (h2 j hj).trans (h1 j hj)

theorem flat_cov {ty : Ty} (h1 : ty.etype ≠ .struct) (h2 : ty.etype ≠ .array) {off j : Nat} (h3 : off ≤ j) (h4 : j < off + ty.size x) : Covered x ty off j := by
  cases ty
  case struct => exact absurd rfl h1
  case array => exact absurd rfl h2
  all_goals exact ⟨h3, h4⟩

theorem below_same {m m' b : Block} {a : Addr} {st : Step} {rest : List Step} (hp : a.path = st :: rest) (hw : writeSeg m (.at a) b = some m') {j : Nat} (hj : j ≠ st.off) : m'[j]? = m[j]? := by
  simp only [writeSeg, hp] at hw
  cases hg : getBlock m (st :: rest) with
  | none => rw [hg] at hw; cases hw
  | some b1 =>
    rw [hg] at hw
    simp only [Option.bind_some] at hw
    cases hb : blit b1 a.off b with
    | none => rw [hb] at hw; cases hw
    | some b2 =>
      rw [hb] at hw
      simp only [Option.bind_some, putBlock] at hw
      split at hw
      · cases hw
      · split at hw
        · cases hw
        · split at hw
          · cases hw
          · cases hw
            rw [List.getElem?_set_ne (Ne.symm hj)]

theorem write_spot {ty : Ty} (h1 : ty.etype ≠ .struct) (h2 : ty.etype ≠ .array) {m m' b : Block} {a : Addr} (h : Spot x C ty a) (hb : b.length ≤ ty.size x) (hw : writeSeg m (.at a) b = some m') : Same C m m' := by
  intro j hj
  cases hp : a.path with
  | cons st rest => exact below_same hp hw (fun e => hj (e ▸ h.below st rest hp))
  | nil =>
    simp only [writeSeg, hp, getBlock, putBlock, Option.bind_some] at hw
    cases hbl : blit m a.off b with
    | none => rw [hbl] at hw; cases hw
    | some b2 =>
      rw [hbl] at hw
      cases hw
      by_cases hl : j < a.off
      · exact Mem.blit_get_lt hbl hl
      · by_cases hg : a.off + b.length ≤ j
        · exact Mem.blit_get_ge hbl hg
        · exact absurd (h.here hp j (flat_cov h1 h2 (by omega) (by omega))) hj

/-- Below a pointer, slice or map. -/
theorem into_spot {ty : Ty} (h1 : ty.etype ≠ .struct) (h2 : ty.etype ≠ .array) (h0 : 0 < ty.size x) {a : Addr} (h : Spot x C ty a) (sel : Sel) : ∀ st rest, (a.into sel).path = st :: rest → C st.off := by
  intro st rest hp
  simp only [Addr.into] at hp
  cases hq : a.path with
  | nil => rw [hq] at hp; simp at hp; obtain ⟨rfl, -⟩ := hp; exact h.here hq _ (flat_cov h1 h2 (Nat.le_refl _) (by show a.off < _; omega))
  | cons st' rest' => rw [hq] at hp; simp at hp; rw [← hp.1]; exact h.below _ _ hq

theorem into_ne (a : Addr) (sel : Sel) : (a.into sel).path ≠ [] := by simp [Addr.into]

/-- A frame whose offset does not change. -/
def Static (fr : List Frame) (c : Frame) : Prop :=
  c.parent = none ∨ ∃ p g, c.parent = some p ∧ fr[p]? = some g ∧ (g.type = .struct ∨ g.type = .map ∨ g.type = .ptr)

/-- The frame of the elements of an array. -/
def ArrElem (fr : List Frame) (c : Frame) : Prop := ∃ p g, c.parent = some p ∧ fr[p]? = some g ∧ g.type = .array

/-- The pointer of frame `i` is at a place for it. -/
def FrameOK (x : Ext) (C : Nat → Prop) (fr : List Frame) (i : Nat) (y : Dyn) : Prop :=
  ∀ a, y.dest = .at a → ∃ ty c, Rep x fr ty i ∧ fr[i]? = some c ∧ (∀ st rest, a.path = st :: rest → C st.off) ∧
    (a.path = [] → (Static fr c ∧ Sub x C ty (a.off + c.offset)) ∨
      (ArrElem fr c ∧ y.offset = min y.len (c.cap - 1) * c.size ∧ 0 < c.cap ∧ ∀ k, k < c.cap → Sub x C ty (a.off + k * c.size)))

/-- The invariant. -/
structure Inv (pr : Prog) (C : Nat → Prop) (s : St) : Prop where
  frame : ∀ i, FrameOK pr.x C pr.frames i (s.dyn i)
  root : ∀ a, (s.dyn 0).dest = .at a → a = ⟨[], 0⟩
  ptr : s.pc = .onPtr → ∀ f, pr.frames[s.si]? = some f → f.type = .ptr
  json : s.pc = .onJSON → ∀ f, pr.frames[s.si]? = some f → f.type = .jsonUnmarshaler

/-- What a step does. -/
def Good (pr : Prog) (C : Nat → Prop) (s : St) : Out → Prop
  | .run s' => Inv pr C s' ∧ Same C s.mem s'.mem
  | .done s' => s' = s
  | .err _ _ s' => Same C s.mem s'.mem
  | .crash => True

variable {pr : Prog} {s : St}

theorem Inv.spot (h : Inv pr C s) (hd : DynOK pr.frames s.dyn) (ht : Table pr.frames) {a : Addr} (ha : s.p = .at a) :
    ∃ ty f, Rep pr.x pr.frames ty s.si ∧ pr.frames[s.si]? = some f ∧ Spot pr.x C ty a := by
  unfold St.p at ha
  cases hde : (s.dyn s.si).dest with
  | nil => rw [hde] at ha; simp [Ptr.add] at ha
  | stale => rw [hde] at ha; simp [Ptr.add] at ha
  | «at» a0 =>
    rw [hde] at ha
    simp only [Ptr.add, Ptr.at.injEq] at ha
    obtain ⟨ty, c, hR, hc, hb, hp⟩ := h.frame s.si a0 hde
    refine ⟨ty, c, hR, hc, ?_, ?_⟩
    · intro hpa
      rw [← ha] at hpa ⊢
      show Sub pr.x C ty (a0.off + (s.dyn s.si).offset)
      have hnr : c.type ≠ .structRecur := fun e => absurd (ht.nr hc e) (by decide)
      rcases hp hpa with ⟨hs, h2⟩ | ⟨-, h1, h2, h3⟩
      · have : (s.dyn s.si).offset = c.offset := by
          rcases hs with hn | ⟨p, g, hp, hg, ht⟩
          · exact hd.root _ _ hc hnr hn
          · exact hd.off _ _ _ _ hc hnr hp hg (by rcases ht with h | h | h <;> simp [h])
        rw [this]; exact h2
      · rw [h1]; exact h3 _ (by omega)
    · intro st rest hpa
      rw [← ha] at hpa
      exact hb st rest hpa

/-- Sizes of values, apart from those with methods. -/
def esize (x : Ext) : EType → Nat
  | .any | .number => 2 * x.W
  | .scalar k | .quoted k => k.bytes x
  | .slice | .sliceOf _ | .sliceEmptyStruct => 3 * x.W
  | .mapStringString | .map | .ptr => x.W
  | _ => 0

theorem esize_le (ty : Ty) : esize x ty.etype ≤ ty.size x := by
  cases ty <;> simp [esize, Ty.etype, Ty.size]

theorem W_pos (x : Ext) : 0 < x.W := by unfold Ext.W; split <;> omega

/-- Writing a value of the type of the frame. -/
theorem Inv.write (h : Inv pr C s) (hd : DynOK pr.frames s.dyn) (ht : Table pr.frames) {f : Frame} (hf : pr.frames[s.si]? = some f) (h1 : f.type ≠ .struct) (h2 : f.type ≠ .array) {b m : Block}
    (hb : b.length = f.size ∨ b.length ≤ esize pr.x f.type) (hw : writeSeg s.mem s.p b = some m) : Same C s.mem m := by
  cases hp : s.p with
  | nil => rw [hp] at hw; simp [writeSeg] at hw
  | stale => rw [hp] at hw; simp [writeSeg] at hw
  | «at» a =>
    obtain ⟨ty, f', hR, hf', hs⟩ := h.spot hd ht hp
    rw [hf] at hf'; cases hf'
    obtain ⟨f', hf', e1, e2⟩ := hR.frame
    rw [hf] at hf'; cases hf'
    rw [hp] at hw
    refine write_spot (e1 ▸ h1) (e1 ▸ h2) hs ?_ hw
    rcases hb with hb | hb
    · omega
    · rw [e1] at hb; exact Nat.le_trans hb (esize_le ty)

theorem good_run (h : Inv pr C s) {s' : St} (hm : Same C s.mem s'.mem) (hdy : s'.dyn = s.dyn) (h1 : s'.pc ≠ .onPtr) (h2 : s'.pc ≠ .onJSON) : Good pr C s (.run s') :=
  ⟨⟨by rw [hdy]; exact h.frame, by rw [hdy]; exact h.root, fun e => absurd e h1, fun e => absurd e h2⟩, hm⟩

/-! ## Scalars -/

/-- The action stays within the value. -/
def ActOK (x : Ext) (et : EType) : Act → Prop
  | .store n _ | .clear n => n ≤ esize x et ∧ et ≠ .struct ∧ et ≠ .array
  | .text _ => et = .textUnmarshaler
  | .toPtr => et = .ptr
  | .toJSON => et = .jsonUnmarshaler
  | _ => True

theorem exec_good (h : Inv pr C s) (hd : DynOK pr.frames s.dyn) (ht : Table pr.frames) {f : Frame} (hf : pr.frames[s.si]? = some f) {t : Token} {a : Act} (ha : ActOK pr.x f.type a) : Good pr C s (exec pr s f t a) := by
  cases a with
  | store n c =>
    simp only [exec]
    split
    · trivial
    · rename_i m hm
      exact good_run h (h.write hd ht hf ha.2.1 ha.2.2 (.inr (by rw [Mem.seg_length]; exact ha.1)) hm) rfl (by simp) (by simp)
  | clear n =>
    simp only [exec]
    split
    · trivial
    · rename_i m hm
      exact good_run h (h.write hd ht hf ha.2.1 ha.2.2 (.inr (by rw [Mem.zeros_length]; exact ha.1)) hm) rfl (by simp) (by simp)
  | nop => exact good_run h (Same.refl _) rfl (by simp) (by simp)
  | text b =>
    simp only [exec]
    have ha : f.type = .textUnmarshaler := ha
    split
    · split
      · trivial
      · rename_i m hm
        have hs := h.write hd ht hf (by rw [ha]; simp) (by rw [ha]; simp) (.inl (by simp [fit, zeros])) hm
        split
        · exact hs
        · exact good_run h hs rfl (by simp) (by simp)
    · trivial
  | toPtr => exact ⟨⟨h.frame, h.root, fun _ f' hf' => by rw [show pr.frames[s.si]? = some f' from hf'] at hf; cases hf; exact ha, fun e => by simp at e⟩, Same.refl _⟩
  | toJSON => exact ⟨⟨h.frame, h.root, fun e => by simp at e, fun _ f' hf' => by rw [show pr.frames[s.si]? = some f' from hf'] at hf; cases hf; exact ha⟩, Same.refl _⟩
  | err e => exact Same.refl _
  | crash => trivial

theorem onBool_ok (et : EType) (v : Bool) : ActOK x et (onBool x et v) := by
  unfold onBool
  split <;> simp [ActOK, esize, SKind.bytes]

theorem storeInt_ok (k : IKind) (tv : Bytes) (e : Err) : ActOK x (.scalar (.int k)) (storeInt x k tv e) := by
  unfold storeInt
  split <;> simp [ActOK, esize, SKind.bytes]

theorem storeFlt_ok (q : Bool) (k : FKind) (r : Except Nat Flt) : ActOK x (if q then .quoted (.flt k) else .scalar (.flt k)) (storeFlt ((SKind.flt k).bytes x) r) := by
  cases r <;> cases q <;> simp [storeFlt, ActOK, esize]

theorem onInteger_ok (et : EType) (tv : Bytes) : ActOK x et (onInteger x et tv) := by
  unfold onInteger
  split
  · split <;> simp [ActOK, esize]
  · split
    · split
      · trivial
      · split
        · trivial
        · exact storeInt_ok _ _ _
    · exact storeInt_ok _ _ _
  · exact storeFlt_ok false _ _
  all_goals simp [ActOK, esize]

theorem onNumber_ok (et : EType) (tv : Bytes) : ActOK x et (onNumber x et tv) := by
  unfold onNumber
  split
  · split <;> simp [ActOK, esize]
  · exact storeFlt_ok false _ _
  all_goals simp [ActOK, esize]

theorem onString_ok (et : EType) (tv : Bytes) : ActOK x et (onString x et tv) := by
  unfold onString
  split
  case h_7 =>
    split
    · trivial
    · split
      · trivial
      · exact storeFlt_ok true _ _
  all_goals
    try simp only []
    repeat' split
    all_goals simp [ActOK, esize, SKind.bytes]

theorem onNull_ok {et : EType} (hn : recurType et = false) : ActOK x et (onNull x et) := by
  cases et <;> first | (exact absurd hn (by decide)) | simp [onNull, ActOK, esize]

/-! ## Arrays -/

theorem sliceOf_good (h : Inv pr C s) (hd : DynOK pr.frames s.dyn) (ht : Table pr.frames) {f : Frame} (hf : pr.frames[s.si]? = some f) {k : SKind} (hk : f.type = .sliceOf k) (t : Token) : Good pr C s (onSliceOf pr s t k) := by
  have hw : ∀ {c : Cell} {m : Block}, writeSeg s.mem s.p (seg (3 * pr.x.W) c) = some m → Same C s.mem m := fun hm =>
    h.write hd ht hf (by rw [hk]; simp) (by rw [hk]; simp) (.inr (by rw [Mem.seg_length, hk]; simp [esize])) hm
  unfold onSliceOf
  simp only []
  repeat' split
  all_goals first
    | trivial
    | exact Same.refl _
    | exact hw (by assumption)
    | exact good_run h (hw (by assumption)) rfl (by simp) (by simp)

/-- Changing one frame. -/
theorem upd_frame {fr : List Frame} {d : Nat → Dyn} (h : ∀ i, FrameOK x C fr i (d i)) {k : Nat} {g : Dyn → Dyn} (hg : FrameOK x C fr k (g (d k))) : ∀ i, FrameOK x C fr i (upd d k g i) := by
  intro i
  by_cases hi : i = k
  · subst hi; simp only [upd, if_pos]; exact hg
  · simp only [upd, if_neg hi]; exact h i

theorem upd_root {d : Nat → Dyn} {k : Nat} {g : Dyn → Dyn} (hk : k ≠ 0) : (upd d k g 0).dest = (d 0).dest := by
  simp only [upd, if_neg (Ne.symm hk)]

theorem array_good (h : Inv pr C s) (hd : DynOK pr.frames s.dyn) (ht : Table pr.frames) {f : Frame} (hf : pr.frames[s.si]? = some f) (t : Token) : Good pr C s (onArray pr s f t) := by
  have hw : ∀ (n : Nat) {c : Cell} {m : Block}, f.type ≠ .struct → f.type ≠ .array → n ≤ esize pr.x f.type → writeSeg s.mem s.p (seg n c) = some m → Same C s.mem m := fun n c m h1 h2 h3 hm =>
    h.write hd ht hf h1 h2 (.inr (by rw [Mem.seg_length]; exact h3)) hm
  unfold onArray
  simp only []
  split
  case h_1 hty =>
    repeat' split
    all_goals first
      | trivial
      | exact Same.refl _
      | exact good_run h (hw _ (by rw [hty]; simp) (by rw [hty]; simp) (by rw [hty]; exact Nat.le_refl _) (by assumption)) rfl (by simp) (by simp)
  case h_2 => exact good_run h (Same.refl _) rfl (by simp) (by simp)
  case h_3 hty =>
    split
    · exact good_run h (Same.refl _) rfl (by simp) (by simp)
    · refine ⟨⟨upd_frame h.frame ?_, ?_, fun e => ?_, fun e => ?_⟩, Same.refl _⟩
      · intro a ha
        obtain ⟨ty, f', hR, hf', hs⟩ := h.spot hd ht (a := a) ha
        rw [hf] at hf'; cases hf'
        obtain ⟨f', hf', e1, -⟩ := hR.frame
        rw [hf] at hf'; cases hf'
        rw [hty] at e1
        cases ty <;> simp only [Ty.etype] at e1 <;> first | cases e1 | skip
        rename_i n e
        obtain ⟨-, hn, ⟨c, hc, hcp, hcap⟩, hre⟩ := hR
        obtain ⟨c', hc', -, hsz⟩ := hre.frame
        rw [hc] at hc'; cases hc'
        refine ⟨e, c, hre, hc, hs.below, fun hp => .inr ⟨⟨_, f, hcp, hf, hty⟩, ?_, by omega, ?_⟩⟩
        · simp
        · intro k hk j hj
          refine hs.here hp j ?_
          simp only [Covered]
          exact ⟨k, by omega, by rw [← hsz]; exact hj⟩
      · show ∀ a, (upd _ _ _ 0).dest = .at a → _
        rw [upd_root (Nat.succ_ne_zero _)]; exact h.root
      · exact absurd (h.ptr e f hf) (by rw [hty]; simp)
      · exact absurd (h.json e f hf) (by rw [hty]; simp)
  case h_4 hty =>
    have hw' : ∀ {c : Cell} {m : Block}, writeSeg s.mem s.p (seg (3 * pr.x.W) c) = some m → Same C s.mem m := fun hm => hw _ (by rw [hty]; simp) (by rw [hty]; simp) (by rw [hty]; exact Nat.le_refl _) hm
    split
    · trivial
    · split
      · split
        · trivial
        · exact good_run h (hw' (by assumption)) rfl (by simp) (by simp)
      · split
        · rename_i l c a ad _ hp
          split
          · trivial
          · rename_i m hm
            refine ⟨⟨upd_frame h.frame ?_, ?_, fun e => ?_, fun e => ?_⟩, hw' hm⟩
            · intro a' ha'
              cases ha'
              obtain ⟨ty, f', hR, hf', hs⟩ := h.spot hd ht hp
              rw [hf] at hf'; cases hf'
              obtain ⟨f', hf', e1, -⟩ := hR.frame
              rw [hf] at hf'; cases hf'
              rw [hty] at e1
              cases ty <;> simp only [Ty.etype] at e1 <;> first | cases e1 | skip
              rename_i e
              obtain ⟨-, ⟨c', hc', -⟩, hre⟩ := hR
              refine ⟨e, c', hre, hc', into_spot (by simp [Ty.etype]) (by simp [Ty.etype]) ?_ hs _, fun hn => absurd hn (into_ne _ _)⟩
              have := W_pos pr.x
              simp only [Ty.size]; omega
            · show ∀ a, (upd _ _ _ 0).dest = .at a → _
              rw [upd_root (Nat.succ_ne_zero _)]; exact h.root
            · exact absurd (h.ptr e f hf) (by rw [hty]; simp)
            · exact absurd (h.json e f hf) (by rw [hty]; simp)
        · trivial
  case h_5 hty => exact absurd (ht.nr hf hty) (by decide)
  case h_6 hty =>
    split
    · trivial
    · exact good_run h (hw _ (by rw [hty]; simp) (by rw [hty]; simp) (by rw [hty]; exact Nat.le_refl _) (by assumption)) rfl (by simp) (by simp)
  case h_7 k hty => exact sliceOf_good h hd ht hf hty t
  case h_8 hty => exact ⟨⟨h.frame, h.root, fun _ f' hf' => by rw [show pr.frames[s.si]? = some f' from hf'] at hf; cases hf; exact hty, fun e => by simp at e⟩, Same.refl _⟩
  case h_9 hty => exact ⟨⟨h.frame, h.root, fun e => by simp at e, fun _ f' hf' => by rw [show pr.frames[s.si]? = some f' from hf'] at hf; cases hf; exact hty⟩, Same.refl _⟩
  case h_10 => exact Same.refl _

/-! ## Objects and keys -/

theorem fields_rep {x : Ext} {fr : List Frame} {b : Nat} : ∀ {fs : List (Bytes × Nat × Ty)} {pos : Nat} {tbl : List (Bytes × Nat)}, RepFields x fr b fs pos tbl → ∀ q ∈ tbl,
    ∃ (k : Nat) (fl : Bytes × Nat × Ty), pos ≤ q.2 ∧ fs[k]? = some fl ∧ Linked fr b q.2 (fun c => c.offset = fl.2.1) ∧ Rep x fr fl.2.2 q.2
  | [], _, tbl, h, q, hq => by
    have h : tbl = [] := h
    rw [h] at hq; cases hq
  | (n, o, t) :: fs, pos, tbl, h, q, hq => by
    obtain ⟨tbl', rfl, h1, h2, h3⟩ := h
    rcases List.mem_cons.1 hq with rfl | hq
    · exact ⟨0, (n, o, t), Nat.le_refl _, rfl, h1, h2⟩
    · obtain ⟨k, fl, ha, hb, hc⟩ := fields_rep h3 q hq
      exact ⟨k + 1, fl, by omega, by simpa using hb, hc⟩

theorem ensure_same (h : Inv pr C s) (hd : DynOK pr.frames s.dyn) (ht : Table pr.frames) {f : Frame} (hf : pr.frames[s.si]? = some f) (hk : f.type = .map) {m : Block} (hm : ensureMap pr.x.W s.mem s.p = some m) : Same C s.mem m := by
  unfold ensureMap at hm
  split at hm
  · cases hm
  · cases hm; exact Same.refl _
  · exact h.write hd ht hf (by rw [hk]; simp) (by rw [hk]; simp) (.inr (by rw [Mem.seg_length, hk]; simp [esize])) hm

theorem object_good (h : Inv pr C s) (hd : DynOK pr.frames s.dyn) (ht : Table pr.frames) {f : Frame} (hf : pr.frames[s.si]? = some f) (hpc : s.pc = .loop) (t : Token) : Good pr C s (onObject pr s f t) := by
  have hw : ∀ (n : Nat) {c : Cell} {m : Block}, f.type ≠ .struct → f.type ≠ .array → n ≤ esize pr.x f.type → writeSeg s.mem s.p (seg n c) = some m → Same C s.mem m := fun n c m h1 h2 h3 hm =>
    h.write hd ht hf h1 h2 (.inr (by rw [Mem.seg_length]; exact h3)) hm
  unfold onObject
  simp only []
  split
  case h_1 => exact good_run h (Same.refl _) rfl (by simp) (by simp)
  case h_2 hty =>
    repeat' split
    all_goals first
      | trivial
      | exact Same.refl _
      | exact good_run h (hw _ (by rw [hty]; simp) (by rw [hty]; simp) (by rw [hty]; exact Nat.le_refl _) (by assumption)) rfl (by simp) (by simp)
  case h_3 hty => exact absurd (ht.nr hf hty) (by decide)
  case h_4 hty => exact absurd (ht.nr hf hty) (by decide)
  case h_8 hty => exact absurd (ht.nr hf hty) (by decide)
  case h_5 hty =>
    split
    · trivial
    · rename_i m hm
      have := ensure_same h hd ht hf hty hm
      split
      · exact good_run h this rfl (by simp) (by simp)
      · exact good_run h this rfl (by simp [hpc]) (by simp [hpc])
  case h_6 hty =>
    repeat' split
    all_goals first
      | trivial
      | exact Same.refl _
      | exact good_run h (hw _ (by rw [hty]; simp) (by rw [hty]; simp) (by rw [hty]; exact Nat.le_refl _) (by assumption)) rfl (by simp) (by simp)
  case h_7 hty =>
    split
    · exact good_run h (Same.refl _) rfl (by simp) (by simp)
    · have key : ∀ q ∈ f.fields, ∀ a, s.p = .at a → 0 < q.2 ∧ ∀ y : Dyn, FrameOK pr.x C pr.frames q.2 { y with dest := s.p } := by
        intro q hq a ha
        obtain ⟨ty, f', hR, hf', hs⟩ := h.spot hd ht (a := a) ha
        rw [hf] at hf'; cases hf'
        obtain ⟨f', hf', e1, -⟩ := hR.frame
        rw [hf] at hf'; cases hf'
        rw [hty] at e1
        cases ty <;> simp only [Ty.etype] at e1 <;> first | cases e1 | skip
        rename_i n fs
        obtain ⟨f', hf', -, -, hfs⟩ := hR
        rw [hf] at hf'; cases hf'
        obtain ⟨k, fl, h1, h2, ⟨c, hc, hcp, hco⟩, h4⟩ := fields_rep hfs q hq
        refine ⟨by omega, fun y a' ha' => ?_⟩
        rw [show s.p = .at a' from ha'] at ha
        cases ha
        refine ⟨fl.2.2, c, h4, hc, hs.below, fun hp => .inl ⟨.inr ⟨_, f, hcp, hf, .inl hty⟩, ?_⟩⟩
        intro j hj
        refine hs.here hp j ?_
        simp only [Covered]
        rw [hco] at hj
        exact covF_get h2 hj
      refine ⟨⟨?_, ?_, fun e => absurd (hpc.symm.trans e) (by simp), fun e => absurd (hpc.symm.trans e) (by simp)⟩, Same.refl _⟩
      · intro i
        show FrameOK _ _ _ i (setFieldDests s.p f.fields s.dyn i)
        rw [setFieldDests_eq]
        split
        · rename_i hi
          obtain ⟨q, hq, rfl⟩ := List.mem_map.1 hi
          intro a ha
          exact (key q hq a ha).2 _ a ha
        · exact h.frame i
      · show ∀ a, (setFieldDests s.p f.fields s.dyn 0).dest = .at a → _
        rw [setFieldDests_eq]
        split
        · rename_i hi
          obtain ⟨q, hq, hq0⟩ := List.mem_map.1 hi
          intro a ha
          have := (key q hq a ha).1; omega
        · exact h.root
  case h_9 hty => exact ⟨⟨h.frame, h.root, fun _ f' hf' => by rw [show pr.frames[s.si]? = some f' from hf'] at hf; cases hf; exact hty, fun e => by simp at e⟩, Same.refl _⟩
  case h_10 hty => exact ⟨⟨h.frame, h.root, fun e => by simp at e, fun _ f' hf' => by rw [show pr.frames[s.si]? = some f' from hf'] at hf; cases hf; exact hty⟩, Same.refl _⟩
  case h_11 => exact Same.refl _

theorem key_good (h : Inv pr C s) (hd : DynOK pr.frames s.dyn) (ht : Table pr.frames) {f : Frame} (hf : pr.frames[s.si]? = some f) (hpc : s.pc = .loop) (t : Token) : Good pr C s (onKey pr s f t) := by
  have map : f.type = .map → Good pr C s (onKey pr s f t) := by
    intro hty
    unfold onKey
    rw [hty]
    simp only []
    split
    · rename_i key fk ad _ _ hp
      obtain ⟨ty, f', hR, hf', hs⟩ := h.spot hd ht hp
      rw [hf] at hf'; cases hf'
      obtain ⟨f', hf', e1, -⟩ := hR.frame
      rw [hf] at hf'; cases hf'
      rw [hty] at e1
      cases ty <;> simp only [Ty.etype] at e1 <;> first | cases e1 | skip
      rename_i kt e
      obtain ⟨-, -, ⟨c, hc, hcp, hco⟩, hre⟩ := hR
      have hin : ∀ sel, ∀ st rest, (ad.into sel).path = st :: rest → C st.off := fun sel => into_spot (by simp [Ty.etype]) (by simp [Ty.etype]) (by simp only [Ty.size]; exact W_pos _) hs sel
      split
      · trivial
      · exact Same.refl _
      · rename_i k? _
        split
        · trivial
        · rename_i m pNew hmp
          have hm : Same C s.mem m ∧ (pNew = .nil ∨ ∃ k, pNew = .at (ad.into (.entry k))) := by
            cases k? with
            | none => simp at hmp; rw [← hmp.1, ← hmp.2]; exact ⟨Same.refl _, .inl rfl⟩
            | some k =>
              simp only [Option.map_eq_some_iff] at hmp
              obtain ⟨m', h1, h2⟩ := hmp
              cases h2
              refine ⟨?_, .inr ⟨k, rfl⟩⟩
              unfold mapAssign at h1
              split at h1
              · cases h1
              · unfold assignEntry at h1
                split at h1
                · split at h1
                  · cases h1; exact Same.refl _
                  · exact write_spot (ty := .map kt e) (by simp [Ty.etype]) (by simp [Ty.etype]) hs (by rw [Mem.seg_length]; simp [Ty.size]) h1
                · cases h1
          rw [if_neg (by simp)]
          have hinv : ∀ (s' : St), s'.dyn = (upd s.dyn (s.si + 2) fun y => { y with dest := pNew }) → s'.pc = s.pc → Inv pr C s' := by
            intro s' hdy hpc'
            refine ⟨?_, ?_, fun e => absurd (hpc.symm.trans (hpc'.symm.trans e)) (by simp), fun e => absurd (hpc.symm.trans (hpc'.symm.trans e)) (by simp)⟩
            · rw [hdy]
              refine upd_frame h.frame ?_
              intro a ha
              rcases hm.2 with hn | ⟨k, hk⟩
              · rw [show pNew = .at a from ha] at hn; cases hn
              · rw [show pNew = .at a from ha] at hk
                cases hk
                exact ⟨e, c, hre, hc, hin _, fun hn => absurd hn (into_ne _ _)⟩
            · rw [hdy, upd_root (by omega)]; exact h.root
          split
          · trivial
          · split
            · split
              · trivial
              · rename_i m2 hm2
                refine ⟨hinv _ rfl rfl, hm.1.trans ?_⟩
                rcases hm.2 with hn | ⟨k, hk⟩
                · rw [hn] at hm2; simp [writeSeg] at hm2
                · rw [hk] at hm2
                  intro j hj
                  cases hpp : (ad.into (.entry k)).path with
                  | nil => exact absurd hpp (into_ne _ _)
                  | cons st rest => exact below_same hpp hm2 (fun e' => hj (e' ▸ hin _ _ _ hpp))
            · exact ⟨hinv _ rfl rfl, hm.1⟩
    · trivial
  by_cases hty : f.type = .map
  · exact map hty
  · unfold onKey
    split
    case h_3 e => exact absurd e hty
    case h_4 e => exact absurd (ht.nr hf e) (by decide)
    case h_5 => exact Same.refl _
    all_goals
      repeat' split
      all_goals first
        | trivial
        | exact Same.refl _
        | exact good_run h (Same.refl _) rfl (by simp [hpc]) (by simp [hpc])

/-! ## Ends -/

theorem objectEnd_good (h : Inv pr C s) (ht : Table pr.frames) {f : Frame} (hf : pr.frames[s.si]? = some f) : Good pr C s (onObjectEnd pr s f) := by
  unfold onObjectEnd
  simp only []
  split
  case h_2 hty => exact absurd (ht.nr hf hty) (by decide)
  all_goals exact good_run h (Same.refl _) rfl (by simp) (by simp)

theorem arrayEnd_good (h : Inv pr C s) (ht : Table pr.frames) {f : Frame} (hf : pr.frames[s.si]? = some f) : Good pr C s (onArrayEnd pr s f) := by
  unfold onArrayEnd
  simp only []
  split
  case isTrue hty => exact absurd (ht.nr hf hty) (by decide)
  case isFalse => exact good_run h (Same.refl _) rfl (by simp) (by simp)

theorem recurObjEnd_good (h : Inv pr C s) (hd : DynOK pr.frames s.dyn) (ht : Table pr.frames) (f : Frame) : Good pr C s (onRecurObjEnd pr s f) := by
  unfold onRecurObjEnd
  rw [hd.rs s.si (fun f' hf' hc => absurd (ht.nr hf' hc) (by decide))]
  exact good_run h (Same.refl _) rfl (by simp) (by simp)

theorem valEnd_good (h : Inv pr C s) {f : Frame} (hf : pr.frames[s.si]? = some f) : Good pr C s (onValEnd pr s f) := by
  unfold onValEnd
  simp only []
  split
  · exact good_run h (Same.refl _) rfl (by simp) (by simp)
  · rename_i p hp
    split
    · trivial
    · rename_i fc hfc
      have other : ∀ {a : Addr}, (s.dyn s.si).dest = .at a → a.path = [] → (fc.type = .array ∨ fc.type = .slice) → ArrElem pr.frames f := by
        intro a ha hpa hty
        obtain ⟨ty, c, -, hc, -, h2⟩ := h.frame s.si a ha
        rw [hf] at hc; cases hc
        rcases h2 hpa with ⟨hst, -⟩ | ⟨ha, -⟩
        · exfalso
          rcases hst with hn | ⟨p', g, hp', hg, ht'⟩
          · rw [hn] at hp; cases hp
          · rw [hp] at hp'; cases hp'
            rw [hfc] at hg; cases hg
            rcases hty with h1 | h1 <;> rw [h1] at ht' <;> simp at ht'
        · exact ha
      split
      case h_1 => exact good_run h (Same.refl _) rfl (by simp) (by simp)
      case h_2 hty =>
        have hlen : (upd s.dyn s.si (fun y => { y with len := y.len + 1 }) s.si).len = (s.dyn s.si).len + 1 := by simp [upd]
        split
        · rename_i hge
          rw [hlen] at hge
          split
          · trivial
          · refine ⟨⟨upd_frame h.frame ?_, ?_, fun e => by simp at e, fun e => by simp at e⟩, Same.refl _⟩
            · intro a ha
              obtain ⟨ty, c, hR, hc, hb, h2⟩ := h.frame s.si a ha
              refine ⟨ty, c, hR, hc, hb, fun hpa => ?_⟩
              rcases h2 hpa with ⟨hst, hsub⟩ | ⟨hae, ho, hcap, hsub⟩
              · exact .inl ⟨hst, hsub⟩
              · rw [hf] at hc; cases hc
                refine .inr ⟨hae, ?_, hcap, hsub⟩
                show (s.dyn s.si).offset = min ((s.dyn s.si).len + 1) (f.cap - 1) * f.size
                rw [ho]
                congr 1
                omega
            · intro a ha
              refine h.root a ?_
              by_cases h0 : s.si = 0
              · rw [h0] at ha; simpa [upd] using ha
              · simpa [upd, Ne.symm h0] using ha
        · rename_i hlt
          rw [hlen] at hlt
          refine ⟨⟨?_, ?_, fun e => by simp at e, fun e => by simp at e⟩, Same.refl _⟩
          · intro i
            by_cases hi : i = s.si
            · subst hi
              intro a ha
              have ha' : (s.dyn s.si).dest = .at a := by simpa [upd] using ha
              obtain ⟨ty, c, hR, hc, hb, h2⟩ := h.frame s.si a ha'
              refine ⟨ty, c, hR, hc, hb, fun hpa => ?_⟩
              rcases h2 hpa with ⟨hst, hsub⟩ | ⟨hae, ho, hcap, hsub⟩
              · exact .inl ⟨hst, hsub⟩
              · rw [hf] at hc; cases hc
                refine .inr ⟨hae, ?_, hcap, hsub⟩
                simp only [upd, if_pos]
                rw [ho]
                rw [show min (s.dyn s.si).len (f.cap - 1) = (s.dyn s.si).len by omega, show min ((s.dyn s.si).len + 1) (f.cap - 1) = (s.dyn s.si).len + 1 by omega, Nat.add_mul, Nat.one_mul]
            · show FrameOK _ _ _ i (upd _ _ _ i)
              simp only [upd, if_neg hi]
              exact h.frame i
          · intro a ha
            refine h.root a ?_
            by_cases h0 : s.si = 0
            · rw [h0] at ha; simpa [upd] using ha
            · simpa [upd, Ne.symm h0] using ha
      case h_3 hty =>
        refine ⟨⟨upd_frame h.frame ?_, ?_, fun e => by simp at e, fun e => by simp at e⟩, Same.refl _⟩
        · intro a ha
          obtain ⟨ty, c, hR, hc, hb, h2⟩ := h.frame s.si a ha
          refine ⟨ty, c, hR, hc, hb, fun hpa => ?_⟩
          obtain ⟨p', g, hp', hg, hty'⟩ := other ha hpa (.inr hty)
          rw [hp] at hp'; cases hp'
          rw [hfc] at hg; cases hg
          rw [hty] at hty'; cases hty'
        · intro a ha
          refine h.root a ?_
          by_cases h0 : s.si = 0
          · rw [h0] at ha; simpa [upd] using ha
          · simpa [upd, Ne.symm h0] using ha
      all_goals exact good_run h (Same.refl _) rfl (by simp) (by simp)

theorem ptr_good (h : Inv pr C s) (hd : DynOK pr.frames s.dyn) (ht : Table pr.frames) (hpc : s.pc = .onPtr) : Good pr C s (onPtr pr s) := by
  unfold onPtr
  split
  · trivial
  · rename_i fe hfe
    split
    · trivial
    · rename_i m hm
      cases hp : s.p with
      | nil => rw [hp] at hm; simp [writeSeg] at hm
      | stale => rw [hp] at hm; simp [writeSeg] at hm
      | «at» ad =>
        obtain ⟨ty, f, hR, hf, hs⟩ := h.spot hd ht hp
        have hty := h.ptr hpc f hf
        have hsame : Same C s.mem m := h.write hd ht hf (by rw [hty]; simp) (by rw [hty]; simp) (.inr (by rw [Mem.seg_length, hty]; exact Nat.le_refl _)) hm
        obtain ⟨f', hf', e1, -⟩ := hR.frame
        rw [hf] at hf'; cases hf'
        rw [hty] at e1
        cases ty <;> simp only [Ty.etype] at e1 <;> first | cases e1 | skip
        rename_i e
        obtain ⟨-, ⟨c, hc, hcp, hco⟩, hre⟩ := hR
        split
        · exact good_run h hsame rfl (by simp) (by simp)
        · refine ⟨⟨upd_frame h.frame ?_, ?_, fun e => by simp at e, fun e => by simp at e⟩, hsame⟩
          · intro a ha
            cases ha
            exact ⟨e, c, hre, hc, into_spot (by simp [Ty.etype]) (by simp [Ty.etype]) (by simp only [Ty.size]; exact W_pos _) hs _, fun hn => absurd hn (into_ne _ _)⟩
          · show ∀ a, (upd _ _ _ 0).dest = .at a → _
            rw [upd_root (Nat.succ_ne_zero _)]; exact h.root

theorem json_good (h : Inv pr C s) (hd : DynOK pr.frames s.dyn) (ht : Table pr.frames) (hpc : s.pc = .onJSON) {f : Frame} (hf : pr.frames[s.si]? = some f) (t : Token) : Good pr C s (onJSONUnmarshaler pr s f t) := by
  have hty := h.json hpc f hf
  unfold onJSONUnmarshaler
  split
  · simp only []
    split
    · trivial
    · rename_i m hm
      have hs := h.write hd ht hf (by rw [hty]; simp) (by rw [hty]; simp) (.inl (by simp [fit, zeros])) hm
      split
      · exact hs
      · exact good_run h hs rfl (by simp) (by simp)
  · trivial

theorem step_good (h : Inv pr C s) (hd : DynOK pr.frames s.dyn) (ht : Table pr.frames) : Good pr C s (step pr s) := by
  unfold step
  split
  · rename_i hpc
    split
    · rfl
    · split
      · trivial
      · rename_i f hf
        unfold dispatch
        split
        case h_1 => exact exec_good h hd ht hf (onBool_ok _ _)
        case h_2 => exact exec_good h hd ht hf (onBool_ok _ _)
        case h_3 =>
          split
          · trivial
          · exact exec_good h hd ht hf (onInteger_ok _ _)
        case h_4 =>
          split
          · trivial
          · exact exec_good h hd ht hf (onNumber_ok _ _)
        case h_5 =>
          split
          · trivial
          · exact exec_good h hd ht hf (onString_ok _ _)
        case h_6 => exact exec_good h hd ht hf (onNull_ok (ht.nr hf rfl))
        case h_7 => exact array_good h hd ht hf _
        case h_8 => exact object_good h hd ht hf hpc _
        case h_9 => exact key_good h hd ht hf hpc _
        case h_10 => exact objectEnd_good h ht hf
        case h_11 => exact arrayEnd_good h ht hf
  · split
    · trivial
    · exact recurObjEnd_good h hd ht _
  · split
    · trivial
    · rename_i hf
      exact valEnd_good h hf
  · rename_i hpc; exact ptr_good h hd ht hpc
  · rename_i hpc
    split
    · rename_i hf; exact json_good h hd ht hpc hf _
    · trivial

theorem run_good (ht : Table pr.frames) : ∀ (n : Nat) {s : St}, Inv pr C s → DynOK pr.frames s.dyn →
    match run pr n s with
    | .run s' | .done s' => Inv pr C s' ∧ Same C s.mem s'.mem
    | .err _ _ s' => Same C s.mem s'.mem
    | .crash => True := by
  intro n
  induction n with
  | zero => intro s h hd; exact ⟨h, Same.refl _⟩
  | succ n ih =>
    intro s h hd
    rw [run]
    have h1 := step_good h hd ht
    have h2 := step_dynOK ht hd
    cases hs : step pr s with
    | run s' =>
      rw [hs] at h1 h2
      have h3 := ih h1.1 h2
      simp only []
      cases hr : run pr n s' <;> rw [hr] at h3
      · exact ⟨h3.1, h1.2.trans h3.2⟩
      · exact ⟨h3.1, h1.2.trans h3.2⟩
      · exact h1.2.trans h3
      · trivial
    | done s' =>
      rw [hs] at h1
      have h1 : s' = s := h1
      subst h1
      exact ⟨h, Same.refl _⟩
    | err i e s' => rw [hs] at h1; exact h1
    | crash => trivial

/-- Reading the whole destination and writing it back changes nothing. -/
theorem copy_back {m b m' : Block} {n : Nat} (h1 : readSeg m (.at ⟨[], 0⟩) n = some b) (h2 : blit m 0 b = some m') : m' = m := by
  simp only [readSeg, getBlock, Option.bind_some, Nat.zero_add, List.drop_zero] at h1
  split at h1 <;> cases h1
  rename_i hn
  unfold blit at h2
  split at h2 <;> cases h2
  simp [Nat.min_eq_left hn]

/-- Whatever the input, `Decode` changes only bytes that belong to known fields. -/
theorem decode_same {x : Ext} {ty : Ty} {d : Decoder} (hrdy : Ready x ty d) (hnil : ∀ i, (d.dyn i).dest = .nil) {src : Bytes} {doc : Except (Nat × Nat) JVal} {mem : Block} {o : Option Options} {r : DecodeRes}
    (hr : decode x d src doc (some mem) o = some r) : ∃ mem', r.mem = some mem' ∧ Same (Covered x ty 0) mem mem' := by
  cases doc with
  | error ic =>
    obtain ⟨i, c⟩ := ic
    simp only [decode] at hr
    split at hr <;> cases hr
    exact ⟨mem, rfl, Same.refl _⟩
  | ok v =>
    have hinv : Inv { x := x, src := src, toks := flatten 0 v, frames := d.frames, options := o, epoch := d.calls } (Covered x ty 0) (initSt d.dyn mem) := by
      refine ⟨?_, ?_, fun e => by simp [initSt] at e, fun e => by simp [initSt] at e⟩
      · refine upd_frame (fun i a ha => by rw [hnil i] at ha; cases ha) ?_
        intro a ha
        cases ha
        obtain ⟨f, hf, hp, ho⟩ := hrdy.root
        refine ⟨ty, f, hrdy.rep, hf, ?_, fun _ => .inl ⟨.inl hp, fun j hj => by rw [ho] at hj; exact hj⟩⟩
        intro st rest h; cases h
      · intro a ha
        simp [initSt, upd] at ha
        exact ha.symm
    have hgood := run_good hrdy.table (fuelFor { x := x, src := src, toks := flatten 0 v, frames := d.frames, options := o, epoch := d.calls }) hinv (init_dynOK hrdy.dyn mem)
    simp only [decode] at hr
    split at hr
    · cases hr
    · rename_i f0 fs hfr
      split at hr
      · rename_i he
        rw [he] at hgood
        cases hr
        exact ⟨_, rfl, hgood⟩
      · rename_i s' he
        rw [he] at hgood
        split at hr
        · cases hr
        · rename_i m hm
          cases hr
          rw [Option.bind_eq_some_iff] at hm
          obtain ⟨b, h1, h2⟩ := hm
          refine ⟨m, rfl, ?_⟩
          cases hde : (s'.dyn 0).dest with
          | nil => rw [hde] at h1; simp [readSeg] at h1
          | stale => rw [hde] at h1; simp [readSeg] at h1
          | «at» a =>
            rw [hde, hgood.1.root a hde] at h1
            rw [copy_back h1 h2]
            exact hgood.2
      · cases hr

end Verif.Proof.Cover

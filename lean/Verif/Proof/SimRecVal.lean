import Verif.Proof.SimRec
/-!
# Recursive structs: values, pointers, elements and map entries
-/
namespace Verif.Proof.Sim
open Verif.Model Verif.Big Verif.Spec Verif.Proof.Mem Verif.Proof.Any Verif.Proof.Fields

/-- The members of an object decoded into the struct. -/
def ObjSim (pr : Prog) (size : Nat) (fs : RFields) (r : Nat) (f : Frame) (n : Nat) : Prop :=
  ∀ (s : St) (path : List Step) (off : Nat) (blk : Block) (i k : Nat) (ms : List ((Nat × Nat) × JVal)) (te : Token) (rest : List Token) (here top : Bool),
    s.pc = .loop → s.si = r → (∀ q ∈ f.fields, (s.dyn q.2).dest = .at ⟨path, off⟩) → (here = true → (s.dyn r).dest = .at ⟨path, off⟩) →
    (top = true → (s.dyn r).offset = 0) → pr.toks.drop s.ti = flattenM s.ti ms ++ te :: rest → te.type = .objectEnd →
    getBlock s.mem path = some blk → DynOK pr.frames s.dyn → ms ≠ [] → TameR pr.x pr.src pr.options fs n here top (.obj i ms k) →
    PostQ pr s .recurObjEnd r (K₀ r fs) (fun _ => True) path ((flattenM s.ti ms).length + 1) (decR pr.x pr.src pr.options size fs n (.obj i ms k) blk off)

/-- A JSON value, not `null`, decoded into the struct. -/
def ValSim (pr : Prog) (size : Nat) (fs : RFields) (r : Nat) (n : Nat) : Prop :=
  ∀ (s : St) (v : JVal) (path : List Step) (off : Nat) (blk : Block) (rest : List Token) (here top : Bool), Pre pr s r path off blk v rest →
    (here = true → (s.dyn r).dest = .at ⟨path, off⟩) → (top = true → (s.dyn r).offset = 0) → ¬ IsNull v → TameR pr.x pr.src pr.options fs n here top v →
    PostQ pr s .recurObjEnd r (K₀ r fs) (fun _ => True) path (flatten s.ti v).length (decR pr.x pr.src pr.options size fs n v blk off)

theorem leaf_structRecur (x : Ext) (src : Bytes) (v : JVal) : leaf x src .structRecur v = leaf x src .struct v := by
  cases v with
  | num b i e => cases b <;> simp only [leaf] <;> cases Model.slice src i e <;> rfl
  | str i e => simp only [leaf]; cases Model.slice src (i + 1) (e - 1) <;> rfl
  | _ => rfl

/-- Scalars other than `null` are rejected by structs. -/
theorem leaf_struct_bad (x : Ext) (src : Bytes) {v : JVal} (hv : ¬ IsNull v) : leaf x src .struct v = .crash ∨ ∃ e, leaf x src .struct v = .err e := by
  cases v with
  | null i e => exact absurd ⟨i, e, rfl⟩ hv
  | bool b i e => exact .inr ⟨_, rfl⟩
  | num b i e =>
    cases b <;> simp only [leaf] <;> cases Model.slice src i e <;> first | exact .inl rfl | exact .inr ⟨_, rfl⟩
  | str i e =>
    simp only [leaf]; cases Model.slice src (i + 1) (e - 1) <;> first | exact .inl rfl | exact .inr ⟨_, rfl⟩
  | arr i es k => exact .inr ⟨_, rfl⟩
  | obj i es k => exact .inr ⟨_, rfl⟩

theorem val_of_obj {pr : Prog} {size : Nat} {fs : RFields} {r : Nat} {f : Frame} (hr : RecAt pr size fs r f) {n : Nat}
    (hobj : ObjSim pr size fs r f n) : ValSim pr size fs r n := by
  intro s v path off blk rest here top h hhere htop hnn ht
  cases n with
  | zero => exact absurd ht id
  | succ n =>
  cases v with
  | obj i ms k1 =>
    have hs := step_obj h hr.hf
    have htk := h.toks
    simp only [flatten] at htk
    simp only [onObject, hr.hty] at hs
    by_cases hm : ms = []
    · subst hm
      simp only [List.length_nil, if_true] at hs
      simp only [decR, if_true]
      exact ⟨_, Reach.one hs, rfl, h.si, by simp [flatten, flattenM], put_get h.blk, fun _ _ => rfl, h.dyn, trivial⟩
    · rw [if_neg (by simpa using hm)] at hs
      have htk1 : pr.toks.drop (s.ti + 1) = flattenM (s.ti + 1) ms ++ ⟨.objectEnd, k1, k1 + 1, 0⟩ :: rest := by
        have := toks_drop (t := [_]) (r := flattenM (s.ti + 1) ms ++ ⟨.objectEnd, k1, k1 + 1, 0⟩ :: rest) (by rw [htk]; simp; rfl)
        simpa using this
      have hr0 : setFieldDests s.p f.fields s.dyn r = s.dyn r := hr.set_out _ _ (K₀_iff.2 (.inl rfl))
      have hloop := hobj { s with ti := s.ti + 1, dyn := setFieldDests s.p f.fields s.dyn } path off blk i k1 ms ⟨.objectEnd, k1, k1 + 1, 0⟩ rest here top
        h.pc h.si (fun q hq => by rw [set_in _ _ _ hq, h.sp]) (by simp only [hr0]; exact hhere) (by simp only [hr0]; exact htop) htk1 rfl h.blk
        (h.dyn.setFields _ _) hm ht
      refine PostQ.trans (Reach.one hs) ?_ (put_get h.blk) ?_ hloop
      · simp [flatten]; omega
      · intro j hj; exact hr.set_out _ _ hj
  | arr i es k =>
    have := sim_mismatch (w := 0) h hr.hf (flatten s.ti (.arr i es k)).length (.inl ⟨i, es, k, rfl, fun t => by simp [onArray, hr.hty]⟩)
    exact this
  | null i e => exact absurd ⟨i, e, rfl⟩ hnn
  | bool _ _ _ | num _ _ _ | str _ _ =>
    simp only [decR]
    have hsim := sim_leaf (w := 0) (rt := none) (size := 0) (impl := false) h hr.hf rfl (by rw [hr.hty]; simp)
    rw [hr.hty, leaf_structRecur] at hsim
    rcases leaf_struct_bad pr.x pr.src hnn with hl | ⟨e, hl⟩
    · rw [hl] at hsim ⊢; exact hsim
    · rw [hl] at hsim ⊢; exact hsim

/-! ## Fields -/

/-- What holds in the state in which a field of the struct at `⟨path, off⟩` is decoded. -/
structure FPre (pr : Prog) (s : St) (r : Nat) (f : Frame) (p : Nat) (path : List Step) (off fo : Nat) (here top : Bool) (blk : Block) (v : JVal) (rest : List Token) : Prop where
  pre : Pre pr s p path (off + fo) blk v rest
  dests : ∀ q ∈ f.fields, (s.dyn q.2).dest = .at ⟨path, off⟩
  here : here = true → (s.dyn r).dest = .at ⟨path, off⟩
  top : top = true → (s.dyn r).offset = 0

/-- After a field. -/
def FPost (pr : Prog) (s : St) (r : Nat) (fs : RFields) (f : Frame) (path : List Step) (off : Nat) (here : Bool) (t : RField) (v : JVal) (res : Res) : Prop :=
  PostQ pr s .loop r (K₀ r fs) (fun s' => here = true ∨ ¬ enters t v → ∀ q ∈ f.fields, (s'.dyn q.2).dest = .at ⟨path, off⟩) path (flatten s.ti v).length res

/-- A value that ends at `ON_VAL_END` of the field. -/
theorem field_end {pr : Prog} {size : Nat} {fs : RFields} {r : Nat} {f : Frame} (hr : RecAt pr size fs r f) {s : St} {p w : Nat} {path : List Step} {off fo : Nat}
    {here top : Bool} {blk : Block} {v : JVal} {rest : List Token} {t : RField} {res : Res} {c : Frame}
    (h : FPre pr s r f p path off fo here top blk v rest) (hc : pr.frames[p]? = some c) (hcp : c.parent = some r)
    (hp : Post pr s p w path (flatten s.ti v).length res) (hlo : r < p) (hhi : p + w ≤ r + 1 + widthR fs)
    (hother : ∀ q ∈ f.fields, ¬ (p < q.2 ∧ q.2 < p + w)) : FPost pr s r fs f path off here t v res := by
  refine PostQ.then (postQ_of hp) ?_
  intro s1 h1 h2 h3 h4 h6 h7 _
  have hst : step pr s1 = onValEnd pr s1 c := by simp [step, h2, h3, hc]
  simp only [onValEnd, hcp, hr.hf, hr.hty] at hst
  refine ⟨_, Reach.one hst, rfl, rfl, h4, rfl, ?_, h7, ?_⟩
  · intro j hj; exact h6 j (by unfold K₀ at hj; omega)
  · intro _ q hq
    simp only [h6 q.2 (hother q hq)]
    exact h.dests q hq

/-- The frame of the struct when a pointer is followed. -/
def pushPtr (d : Nat → Dyn) (r p epoch : Nat) (dp : Ptr) : Nat → Dyn :=
  upd (upd d r fun y => { y with rstack := ⟨y.dest, y.offset, p, epoch⟩ :: y.rstack }) r fun y => { y with dest := dp }

theorem pushPtr_r (d : Nat → Dyn) (r p epoch : Nat) (dp : Ptr) : pushPtr d r p epoch dp r =
    { dest := dp, offset := (d r).offset, len := (d r).len, rstack := ⟨(d r).dest, (d r).offset, p, epoch⟩ :: (d r).rstack } := by
  simp [pushPtr, upd]

theorem pushPtr_ne (d : Nat → Dyn) (r p epoch : Nat) (dp : Ptr) {j : Nat} (h : j ≠ r) : pushPtr d r p epoch dp j = d j := by
  simp [pushPtr, upd, h]

theorem pushPtr_ok {fr : List Frame} {d : Nat → Dyn} (h : DynOK fr d) {r : Nat} {f : Frame} (hf : fr[r]? = some f) (hty : f.type = .structRecur)
    (p epoch : Nat) (dp : Ptr) : DynOK fr (pushPtr d r p epoch dp) := (h.upd_rec hf hty _).upd_rec hf hty _

/-- A recursive pointer. -/
theorem field_ptr {pr : Prog} {size : Nat} {fs : RFields} {r : Nat} {f : Frame} (hr : RecAt pr size fs r f) {n : Nat} (hobj : ObjSim pr size fs r f n) {s : St}
    {p : Nat} {path : List Step} {off fo : Nat} {here top : Bool} {blk : Block} {v : JVal} {rest : List Token} {c : Frame}
    (h : FPre pr s r f p path off fo here top blk v rest) (hc : pr.frames[p]? = some c) (hcp : c.parent = some r) (hct : c.type = .ptrRecur) (hcr : c.recurFrame = r)
    (hlo : r < p) (hhi : p + 1 ≤ r + 1 + widthR fs)
    (ht : TameField pr.x pr.src pr.options (TameR pr.x pr.src pr.options fs n) here top .ptr v) :
    FPost pr s r fs f path off here .ptr v (fieldB pr.x pr.src pr.options size (decR pr.x pr.src pr.options size fs n) .ptr v blk (off + fo)) := by
  simp only [fieldB]
  have hW := W_pos pr.x
  by_cases hob : ∃ i ms k, v = .obj i ms k
  · obtain ⟨i, ms, k, rfl⟩ := hob
    simp only [TameField] at ht
    have ht := ht i ms k rfl
    have hs := step_obj h.pre hc
    have htk := h.pre.toks
    simp only [flatten] at htk
    have hpr : p ≠ r := by omega
    simp only [onObject, hct, hcr, hr.hf, h.pre.sp, readCell_at h.pre.blk] at hs
    simp only [ptrB]
    -- what happens once the pointer is known to point to a block
    have main : ∀ (b1 pb : Block) (m1 : Block), putBlock s.mem path b1 = some m1 → getBlock b1 [⟨off + fo, .deref⟩] = some pb →
        step pr s = (if ms.length = 0 then .run { s with mem := m1, dyn := pushPtr s.dyn r s.si pr.epoch (.at (Addr.into ⟨path, off + fo⟩ .deref)), ti := s.ti + 2, si := r, pc := .recurObjEnd }
          else .run { s with mem := m1, dyn := setFieldDests (.at (Addr.into ⟨path, off + fo⟩ .deref)) f.fields (pushPtr s.dyn r s.si pr.epoch (.at (Addr.into ⟨path, off + fo⟩ .deref))), ti := s.ti + 1, si := r }) →
        FPost pr s r fs f path off here .ptr (.obj i ms k)
          ((decR pr.x pr.src pr.options size fs n (.obj i ms k) pb 0).bindB (putIn b1 (off + fo) .deref)) := by
      intro b1 pb m1 hm1 hpb hs
      have hpath : getBlock m1 (path ++ [⟨off + fo, .deref⟩]) = some pb := by rw [getBlock_append, get_put hm1]; exact hpb
      -- the state before the pop
      have inner : PostQ pr s .recurObjEnd r (K₁ r fs)
          (fun s' => s'.dyn r = { dest := .at ⟨path ++ [⟨off + fo, .deref⟩], 0⟩, offset := (s.dyn r).offset, len := (s.dyn r).len, rstack := ⟨(s.dyn r).dest, (s.dyn r).offset, p, pr.epoch⟩ :: (s.dyn r).rstack })
          path (flatten s.ti (.obj i ms k)).length ((decR pr.x pr.src pr.options size fs n (.obj i ms k) pb 0).bindB (putIn b1 (off + fo) .deref)) := by
        cases n with
        | zero => exact absurd ht id
        | succ n =>
        by_cases hm : ms = []
        · subst hm
          simp only [List.length_nil, if_true] at hs
          simp only [decR, if_true, Res.bindB]
          obtain ⟨b', hb'⟩ := putBlock_total pb hpb
          have hb1 : b' = b1 := by rw [put_get hpb] at hb'; cases hb'; rfl
          subst hb1
          simp only [putIn, hb']
          refine ⟨_, Reach.one hs, rfl, rfl, by simp [flatten, flattenM], hm1, ?_, pushPtr_ok h.pre.dyn hr.hf hr.hty _ _ _, ?_⟩
          · intro j hj
            exact pushPtr_ne _ _ _ _ _ (by unfold K₁ at hj; omega)
          · simp only [pushPtr_r, h.pre.si, Addr.into]
        · have hm0 : ¬ ms.length = 0 := by simpa using hm
          simp only [hm0, if_false] at hs
          have htk1 : pr.toks.drop (s.ti + 1) = flattenM (s.ti + 1) ms ++ ⟨.objectEnd, k, k + 1, 0⟩ :: rest := by
            have := toks_drop (t := [_]) (r := flattenM (s.ti + 1) ms ++ ⟨.objectEnd, k, k + 1, 0⟩ :: rest) (by rw [htk]; simp; rfl)
            simpa using this
          have hr0 := hr.set_out (.at (Addr.into ⟨path, off + fo⟩ .deref)) (pushPtr s.dyn r s.si pr.epoch (.at (Addr.into ⟨path, off + fo⟩ .deref))) (j := r) (K₀_iff.2 (.inl rfl))
          rw [pushPtr_r] at hr0
          have hloop := hobj { s with mem := m1, dyn := setFieldDests (.at (Addr.into ⟨path, off + fo⟩ .deref)) f.fields (pushPtr s.dyn r s.si pr.epoch (.at (Addr.into ⟨path, off + fo⟩ .deref))), ti := s.ti + 1, si := r }
            (path ++ [⟨off + fo, .deref⟩]) 0 pb i k ms ⟨.objectEnd, k, k + 1, 0⟩ rest true top h.pre.pc rfl
            (fun q hq => set_in _ _ _ hq) (fun _ => by simp only [hr0]; rfl) (fun ht => by simp only [hr0]; exact h.top ht) htk1 rfl hpath
            (DynOK.setFields (pushPtr_ok h.pre.dyn hr.hf hr.hty _ _ _) _ _) hm ht
          refine PostQ.into (Reach.one hs) (n1 := (flattenM (s.ti + 1) ms).length + 1) ?_ hm1 ?_ (hloop.then ?_)
          · simp [flatten]; omega
          · intro j hj
            simp only []
            rw [hr.set_out _ _ (K₀_of hj)]
            exact pushPtr_ne _ _ _ _ _ (by unfold K₁ at hj; omega)
          · intro s1 g1 g2 g3 g4 g6 g7 _
            refine ⟨s1, Reach.refl _ _, g2, g3, g4, rfl, fun j hj => g6 j (K₀_of hj), g7, ?_⟩
            rw [g6 r (K₀_iff.2 (.inl rfl))]
            refine hr0.trans ?_
            simp only [h.pre.si, Addr.into]
      refine PostQ.then inner ?_
      intro s1 g1 g2 g3 g4 g6 g7 g8
      have hst : step pr s1 = onRecurObjEnd pr s1 f := by simp [step, g2, g3, hr.hf]
      simp only [onRecurObjEnd, g3, g8, hc, hct] at hst
      obtain ⟨p1, p2, p3, p4⟩ := hr.pop (d := s1.dyn) (d0 := s.dyn r) (p := p) (by rw [g8]) g7
      refine ⟨_, Reach.one hst, rfl, by simp [parentIdx, hcp], g4, rfl, ?_, p4, ?_⟩
      · intro j hj
        rcases K₀_iff.1 hj with rfl | hj
        · exact p1
        · simp only []; rw [p2 j hj, g6 j hj]
      · intro he q hq
        simp only []
        rw [p3 q hq]
        rcases he with he | he
        · exact h.here he
        · exact absurd trivial he
    cases hcell : blk[off + fo]? with
    | none => rw [hcell] at hs; exact Halts.one hs (by simp)
    | some cell =>
      cases cell with
      | ptr pb =>
        simp only [hcell] at hs ⊢
        refine main blk pb s.mem (put_get h.pre.blk) (by simp [getBlock, hcell, ownedBlock]) ?_
        exact hs
      | zero =>
        simp only [hcell, writeSeg_at h.pre.blk] at hs ⊢
        rw [hr.hsz] at hs
        cases hbl : blit blk (off + fo) (seg pr.x.W (.ptr (zeros size))) with
        | none => rw [hbl] at hs; exact Halts.one hs (by simp)
        | some b1 =>
          rw [hbl] at hs
          obtain ⟨m1, hm1⟩ := putBlock_total b1 h.pre.blk
          simp only [Option.bind_some, hm1] at hs
          have hcell' := blit_seg_get hW hbl
          exact main b1 (zeros size) m1 hm1 (by simp [getBlock, hcell', ownedBlock]) hs
      | _ => rw [hcell] at hs; exact Halts.one hs (by simp)
  · have hdec : ptrB pr.x pr.src (decR pr.x pr.src pr.options size fs n) size v blk (off + fo) =
        execB pr.x none 0 false blk (off + fo) v.index (leaf pr.x pr.src .ptrRecur v) := by
      cases v <;> first | rfl | exact absurd ⟨_, _, _, rfl⟩ hob
    rw [hdec]
    refine field_end hr (w := 1) h hc hcp ?_ hlo hhi (fun q _ => by omega)
    cases v with
    | obj i ms k => exact absurd ⟨_, _, _, rfl⟩ hob
    | arr i es k => exact sim_mismatch h.pre hc _ (.inl ⟨i, es, k, rfl, fun t => by simp [onArray, hct]⟩)
    | null _ _ | bool _ _ _ | num _ _ _ | str _ _ =>
      rw [← hct]
      exact sim_leaf h.pre hc rfl (by rw [hct]; simp)

end Verif.Proof.Sim

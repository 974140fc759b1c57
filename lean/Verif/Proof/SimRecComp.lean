import Verif.Proof.SimRecVal
/-!
# Recursive structs: slices and maps of the struct
-/
namespace Verif.Proof.Sim
open Verif.Model Verif.Big Verif.Spec Verif.Proof.Mem Verif.Proof.Any Verif.Proof.Fields

/-- The frame of the struct as saved on the recursion stack by container `p`. -/
def Saved (pr : Prog) (r p : Nat) (d : Nat → Dyn) (d0 : Dyn) : Prop :=
  (d r).rstack = ⟨d0.dest, d0.offset, p, pr.epoch⟩ :: d0.rstack ∧ (d r).len = d0.len

/-- The elements of a recursive slice, up to the closing bracket. -/
theorem elems_loop {pr : Prog} {size : Nat} {fs : RFields} {r : Nat} {f : Frame} (hr : RecAt pr size fs r f) {n : Nat} (hval : ValSim pr size fs r n)
    {p : Nat} {c : Frame} (hc : pr.frames[p]? = some c) (hcp : c.parent = some r) (hct : c.type = .sliceRecur) (d0 : Dyn) (path : List Step) :
    ∀ (vs : List JVal) (s : St) (off j0 : Nat) (blk : Block) (te : Token) (rest : List Token),
    s.pc = .loop → s.si = r → (s.dyn r).dest = .at ⟨path, 0⟩ → (s.dyn r).offset = off → (j0 = 0 → off = 0) → Saved pr r p s.dyn d0 →
    pr.toks.drop s.ti = flattenL s.ti vs ++ te :: rest → te.type = .arrayEnd → getBlock s.mem path = some blk → DynOK pr.frames s.dyn →
    (∀ (j : Nat) w, vs[j]? = some w → ¬ IsNull w ∧ TameR pr.x pr.src pr.options fs n (j0 + j == 0) (j0 + j == 0) w) →
    PostQ pr s .loop r (K₁ r fs) (fun s' => s'.dyn r = d0 ∧ ∀ q ∈ f.fields, (s'.dyn q.2).dest = d0.dest) path ((flattenL s.ti vs).length + 1)
      (elemsB (decR pr.x pr.src pr.options size fs n) size vs blk off) := by
  intro vs
  induction vs with
  | nil =>
    intro s off j0 blk te rest hpc hsi hdst hoff h0 hsv htk hte hb hd hvs
    simp only [flattenL, List.nil_append] at htk
    simp only [flattenL, elemsB, List.length_nil, Nat.zero_add]
    have hs := step_loop hpc (toks_head htk) (by rw [hsi]; exact hr.hf)
    simp only [dispatch, hte, onArrayEnd, hr.hty, if_true, hsi, hsv.1, hc] at hs
    obtain ⟨p1, p2, p3, p4⟩ := hr.pop (d := s.dyn) (d0 := d0) (p := p) hsv.2 hd
    exact ⟨_, Reach.one hs, hpc, by simp [parentIdx, hcp], rfl, put_get hb, fun j hj => p2 j hj, p4, p1, p3⟩
  | cons v vs ihv =>
    intro s off j0 blk te rest hpc hsi hdst hoff h0 hsv htk hte hb hd hvs
    simp only [flattenL, List.append_assoc] at htk
    have hpre : Pre pr s r path off blk v (flattenL (s.ti + (flatten s.ti v).length) vs ++ te :: rest) :=
      ⟨hpc, hsi, by rw [hdst, hoff]; simp [Ptr.add], htk, hb, hd⟩
    obtain ⟨hnn, htm⟩ := hvs 0 v rfl
    have hj0 : (j0 + 0 == 0) = true → off = 0 := fun h => h0 (by simpa using h)
    have hchild := hval s v path off blk _ _ _ hpre (fun h => by rw [hdst, hj0 h]) (fun h => by rw [hoff, hj0 h]) hnn htm
    simp only [elemsB]
    cases hdec : decR pr.x pr.src pr.options size fs n v blk off with
    | err i er b' => rw [hdec] at hchild; exact hchild
    | crash => rw [hdec] at hchild; exact hchild
    | unsup => trivial
    | ok b' =>
      rw [hdec] at hchild
      obtain ⟨s1, h1, h2, h3, h4, h5, h6, h7, -⟩ := hchild
      have hdr : s1.dyn r = s.dyn r := h6 r (K₀_iff.2 (.inl rfl))
      have hst : step pr s1 = onRecurObjEnd pr s1 f := by simp [step, h2, h3, hr.hf]
      simp only [onRecurObjEnd, h3, hdr, hsv.1, hc, hct, hr.hsz] at hst
      have htk1 : pr.toks.drop s1.ti = flattenL s1.ti vs ++ te :: rest := by
        rw [h4]; exact toks_drop htk
      refine PostQ.trans (h1.trans (Reach.one hst)) ?_ h5 ?_ (ihv _ (off + size) (j0 + 1) b' te rest rfl ?_ ?_ ?_ ?_ ?_ htk1 hte (get_put h5) ?_ ?_)
      · simp only [h4, flattenL, List.length_append]; omega
      · intro j hj
        have : j ≠ r := by unfold K₁ at hj; omega
        simp only [upd, if_neg this]
        exact h6 j (K₀_of hj)
      · rfl
      · simp only [upd, if_pos, hdr]; exact hdst
      · simp only [upd, if_pos, hdr, hoff]
      · intro h; omega
      · simp only [Saved, upd, if_pos, hdr]; exact hsv
      · exact h7.of_rec hr.hf hr.hty (fun j hj => if_neg hj)
      · intro j w hw
        have := hvs (j + 1) w (by simpa using hw)
        have e1 : j0 + 1 + j = j0 + (j + 1) := by omega
        rw [e1]; exact this

theorem leaf_sliceRecur (x : Ext) (src : Bytes) (v : JVal) : leaf x src .sliceRecur v = leaf x src .slice v := by
  cases v with
  | num b i e => cases b <;> simp only [leaf] <;> cases Model.slice src i e <;> rfl
  | str i e => simp only [leaf]; cases Model.slice src (i + 1) (e - 1) <;> rfl
  | _ => rfl

theorem leaf_mapRecur (x : Ext) (src : Bytes) (v : JVal) : leaf x src .mapRecur v = leaf x src .map v := by
  cases v with
  | num b i e => cases b <;> simp only [leaf] <;> cases Model.slice src i e <;> rfl
  | str i e => simp only [leaf]; cases Model.slice src (i + 1) (e - 1) <;> rfl
  | _ => rfl

/-- A recursive slice. -/
theorem field_slice {pr : Prog} {size : Nat} {fs : RFields} {r : Nat} {f : Frame} (hr : RecAt pr size fs r f) {n : Nat} (hval : ValSim pr size fs r n) {s : St}
    {p : Nat} {path : List Step} {off fo : Nat} {here top : Bool} {blk : Block} {v : JVal} {rest : List Token} {c : Frame}
    (h : FPre pr s r f p path off fo here top blk v rest) (hc : pr.frames[p]? = some c) (hcp : c.parent = some r) (hct : c.type = .sliceRecur) (hcr : c.recurFrame = r)
    (hlo : r < p) (hhi : p + 1 ≤ r + 1 + widthR fs)
    (ht : TameField pr.x pr.src pr.options (TameR pr.x pr.src pr.options fs n) here top .slice v) :
    FPost pr s r fs f path off here .slice v (fieldB pr.x pr.src pr.options size (decR pr.x pr.src pr.options size fs n) .slice v blk (off + fo)) := by
  have hW := W_pos pr.x
  by_cases har : ∃ i vs k, v = .arr i vs k
  · obtain ⟨i, vs, k, rfl⟩ := har
    simp only [TameField] at ht
    have ht := ht i vs k rfl
    have hs := step_arr h.pre hc
    have htk := h.pre.toks
    simp only [flatten] at htk
    simp only [onArray, hct, hcr, hr.hf, h.pre.sp] at hs
    simp only [fieldB, sliceB]
    by_cases hv : vs = []
    · subst hv
      simp only [List.length_nil, if_true, writeSeg_at h.pre.blk] at hs
      rw [if_pos rfl]
      cases hbl : blit blk (off + fo) (seg (3 * pr.x.W) (.slice 0 0 [])) with
      | none => rw [hbl] at hs; exact Halts.one hs (by simp)
      | some b1 =>
        rw [hbl] at hs
        obtain ⟨m1, hm1⟩ := putBlock_total b1 h.pre.blk
        simp only [Option.bind_some, hm1] at hs
        by_cases hrs : (s.dyn r).rstack.length < 1
        · rw [if_pos hrs] at hs
          have hst : step pr { s with mem := m1, ti := s.ti + 2, pc := .valEnd } = onValEnd pr { s with mem := m1, ti := s.ti + 2, pc := .valEnd } c := by
            simp [step, h.pre.si, hc]
          simp only [onValEnd, hcp, hr.hf, hr.hty] at hst
          exact ⟨_, Reach.head hs (Reach.one hst), rfl, rfl, by simp [flatten, flattenL], hm1, fun _ _ => rfl, h.pre.dyn, fun _ => h.dests⟩
        · rw [if_neg hrs] at hs
          exact ⟨_, Reach.one hs, h.pre.pc, rfl, by simp [flatten, flattenL], hm1, fun _ _ => rfl, h.pre.dyn, fun _ => h.dests⟩
    · have hv0 : ¬ vs.length = 0 := by simpa using hv
      simp only [hv0, if_false, readCell_at h.pre.blk] at hs
      rw [if_neg hv]
      cases hh : sliceHdr blk[off + fo]? with
      | none => rw [hh] at hs; exact Halts.one hs (by simp)
      | some t =>
        obtain ⟨l, cp, a⟩ := t
        rw [hh] at hs
        simp only [hr.hsz, writeSeg_at h.pre.blk] at hs
        simp only []
        cases hbl : blit blk (off + fo) (seg (3 * pr.x.W) (growSlice size vs.length true l cp a)) with
        | none => rw [hbl] at hs; exact Halts.one hs (by simp)
        | some b1 =>
          rw [hbl] at hs
          obtain ⟨m1, hm1⟩ := putBlock_total b1 h.pre.blk
          simp only [Option.bind_some, hm1] at hs
          obtain ⟨l', c', a', hg⟩ := growSlice_slice size vs.length true l cp a
          have hcell := blit_seg_get (by omega) hbl
          rw [hg] at hcell
          have harr : getBlock b1 [⟨off + fo, .arr⟩] = some a' := by simp [getBlock, hcell, ownedBlock]
          simp only [harr]
          have hpath : getBlock m1 (path ++ [⟨off + fo, .arr⟩]) = some a' := by
            rw [getBlock_append, get_put hm1]; exact harr
          have hloop := elems_loop hr hval hc hcp hct (s.dyn r) (path ++ [⟨off + fo, .arr⟩]) vs
            { s with mem := m1, ti := s.ti + 1, si := r, dyn := upd s.dyn r fun y => { y with dest := .at (Addr.into ⟨path, off + fo⟩ .arr), offset := 0, rstack := ⟨y.dest, y.offset, s.si, pr.epoch⟩ :: y.rstack } }
            0 0 a' ⟨.arrayEnd, k, k + 1, 0⟩ rest h.pre.pc rfl (by simp [upd, Addr.into]) (by simp [upd]) (fun _ => rfl)
            (by simp [Saved, upd, h.pre.si])
            (by
              simp only []
              have := toks_drop (t := [_]) (r := flattenL (s.ti + 1) vs ++ ⟨.arrayEnd, k, k + 1, 0⟩ :: rest) (by rw [htk]; simp; rfl)
              simpa using this)
            rfl hpath (h.pre.dyn.of_rec hr.hf hr.hty (fun j hj => if_neg hj)) (fun j w hw => by rw [Nat.zero_add]; exact ht j w hw)
          have hin := PostQ.into (n := (flatten s.ti (.arr i vs k)).length) (Reach.one hs) (by simp [flatten]; omega) hm1 (fun j hj => by
            have : j ≠ r := by unfold K₁ at hj; omega
            simp only [upd, if_neg this]) hloop
          refine PostQ.then hin ?_
          intro s1 g1 g2 g3 g4 g6 g7 g8
          refine ⟨s1, Reach.refl _ _, g2, g3, g4, rfl, ?_, g7, ?_⟩
          · intro j hj
            rcases K₀_iff.1 hj with rfl | hj
            · exact g8.1
            · exact g6 j hj
          · intro he q hq
            rw [g8.2 q hq]
            rcases he with he | he
            · exact h.here he
            · exact absurd hv he
  · have hdec : fieldB pr.x pr.src pr.options size (decR pr.x pr.src pr.options size fs n) .slice v blk (off + fo) =
        execB pr.x none 0 false blk (off + fo) v.index (leaf pr.x pr.src .sliceRecur v) := by
      rw [leaf_sliceRecur]
      cases v <;> first | rfl | exact absurd ⟨_, _, _, rfl⟩ har
    rw [hdec]
    refine field_end hr (w := 1) h hc hcp ?_ hlo hhi (fun q _ => by omega)
    cases v with
    | arr i ms k => exact absurd ⟨_, _, _, rfl⟩ har
    | obj i es k => exact sim_mismatch h.pre hc _ (.inr ⟨i, es, k, rfl, fun t => by simp [onObject, hct]⟩)
    | null _ _ | bool _ _ _ | num _ _ _ | str _ _ =>
      rw [← hct]
      exact sim_leaf h.pre hc rfl (by rw [hct]; simp)

/-- The members of an object decoded into a recursive map, up to the closing brace. -/
theorem entries_loop {pr : Prog} {size : Nat} {fs : RFields} {r : Nat} {f : Frame} (hr : RecAt pr size fs r f) {n : Nat} (hval : ValSim pr size fs r n)
    {p : Nat} {c fk : Frame} {k : KeyTy} (hc : pr.frames[p]? = some c) (hcp : c.parent = some r) (hct : c.type = .mapRecur) (hcr : c.recurFrame = r)
    (hvs : c.mapValueSize = size) (hfast : c.faststr = true → c.mapValueSize ≤ 128) (hfk : pr.frames[p + 1]? = some fk) (hkr : k.Rep fk) (hk : k ≠ .other) (hlo : r < p) (hhi : p < r + 1 + widthR fs)
    (d0 : Dyn) (path : List Step) (off fo : Nat) (hco : c.offset = fo) (hd0 : d0.dest = .at ⟨path, off⟩) :
    ∀ (ms : List ((Nat × Nat) × JVal)) (s : St) (blk : Block) (te : Token) (rest : List Token),
    s.pc = .loop → s.si = p → (s.dyn p).dest = .at ⟨path, off⟩ → (s.dyn r).offset = 0 → Saved pr r p s.dyn d0 →
    pr.toks.drop s.ti = flattenM s.ti ms ++ te :: rest → te.type = .objectEnd → getBlock s.mem path = some blk → DynOK pr.frames s.dyn →
    (∀ m ∈ ms, ¬ IsNull m.2 ∧ TameR pr.x pr.src pr.options fs n true true m.2) →
    PostQ pr s .loop r (K₁ r fs) (fun s' => s'.dyn r = d0 ∧ ∀ q ∈ f.fields, (s'.dyn q.2).dest = d0.dest) path ((flattenM s.ti ms).length + 1)
      (mapB pr.x pr.src (decR pr.x pr.src pr.options size fs n) k size true ms blk (off + fo)) := by
  intro ms
  have hW := W_pos pr.x
  have hpr : p ≠ r := by omega
  have hoff : ∀ d, DynOK pr.frames d → (d p).offset = fo := fun d hd => by
    rw [← hco]
    exact hd.off p c r f hc (by rw [hct]; simp) hcp hr.hf (.inr (.inr (.inr hr.hty)))
  induction ms with
  | nil =>
    intro s blk te rest hpc hsi hdst ho hsv htk hte hb hd hms
    simp only [flattenM, List.nil_append] at htk
    simp only [flattenM, mapB, List.length_nil, Nat.zero_add]
    have hs := step_loop hpc (toks_head htk) (by rw [hsi]; exact hc)
    simp only [dispatch, hte, onObjectEnd, hct, hcr, hr.hf, hsv.1] at hs
    obtain ⟨p1, p2, p3, p4⟩ := hr.pop (d := s.dyn) (d0 := d0) (p := p) hsv.2 hd
    exact ⟨_, Reach.one hs, hpc, by simp [parentIdx, hcp], rfl, put_get hb, fun j hj => p2 j hj, p4, p1, p3⟩
  | cons m ms ihm =>
    obtain ⟨⟨i, en⟩, v⟩ := m
    intro s blk te rest hpc hsi hdst ho hsv htk hte hb hd hms
    simp only [flattenM, List.append_assoc, List.cons_append] at htk
    have hs := step_loop hpc (toks_head htk) (by rw [hsi]; exact hc)
    have hsp : s.p = .at ⟨path, off + fo⟩ := by simp only [St.p, hsi, hdst, hoff _ hd]; rfl
    simp only [dispatch, onKey, hct, hsi, hfk, hsp] at hs
    simp only [mapB]
    cases hkey : Model.slice pr.src (i + 1) (en - 1) with
    | none => rw [hkey] at hs; exact Halts.one hs (by simp)
    | some key =>
      rw [hkey] at hs
      simp only [mapKeyOf_rep hkr hk] at hs ⊢
      cases hkk : k.key pr.x key with
      | none => rw [hkk] at hs; exact Halts.one hs (by simp)
      | some rk =>
        rw [hkk] at hs
        cases rk with
        | error er =>
          simp only [Option.map_some, Except.map] at hs
          exact ⟨s, Halts.one hs (by simp), put_get hb, hd⟩
        | ok k' =>
          simp only [Option.map_some, Except.map, mapAssign_eq hfast, assignEntry_at hb, hvs] at hs
          simp only []
          cases has : assignEntry pr.x.W size blk ⟨[], off + fo⟩ k' with
          | none => rw [has] at hs; exact Halts.one hs (by simp)
          | some b1 =>
            obtain ⟨eb, heb⟩ := assignEntry_get hW has
            rw [has] at hs
            obtain ⟨m1, hm1⟩ := putBlock_total b1 hb
            simp only [Option.bind_some, hm1, Option.map_some, if_true, hcr, hr.hf, hr.hty, or_true] at hs
            have hpath : getBlock m1 (path ++ [⟨off + fo, .entry k'⟩]) = some eb := by
              rw [getBlock_append, get_put hm1]; exact heb
            simp only [heb, if_true]
            simp only [Addr.into, writeSeg_at hpath] at hs
            cases hbz : blit eb 0 (zeros size) with
            | none => rw [hbz] at hs; exact Halts.one hs (by simp)
            | some eb' =>
              rw [hbz] at hs
              obtain ⟨m2, hm2⟩ := putBlock_total eb' hpath
              simp only [Option.bind_some, hm2] at hs
              have hpre : Pre pr { s with mem := m2, dyn := upd s.dyn r fun y => { y with dest := .at ⟨path ++ [⟨off + fo, .entry k'⟩], 0⟩ },
                                          si := r, ti := s.ti + 1 } r (path ++ [⟨off + fo, .entry k'⟩]) 0 eb' v
                  (flattenM (s.ti + 1 + (flatten (s.ti + 1) v).length) ms ++ te :: rest) := by
                refine ⟨hpc, rfl, ?_, ?_, get_put hm2, hd.of_rec hr.hf hr.hty (fun j hj => if_neg hj)⟩
                · simp [upd, Ptr.add, ho]
                · have := toks_drop (t := [_]) (r := flatten (s.ti + 1) v ++ (flattenM (s.ti + 1 + (flatten (s.ti + 1) v).length) ms ++ te :: rest))
                    (by rw [htk]; simp; rfl)
                  simpa using this
              obtain ⟨hnn, htm⟩ := hms _ List.mem_cons_self
              have hchild := hval _ v _ 0 eb' _ true true hpre (fun _ => by simp [upd]) (fun _ => by simp [upd, ho]) hnn htm
              obtain ⟨b2, hb2⟩ : ∃ b2, putBlock b1 [⟨off + fo, .entry k'⟩] eb' = some b2 := putBlock_total eb' heb
              have hm2' : putBlock s.mem path b2 = some m2 := by
                rw [putBlock_append (get_put hm1), hb2] at hm2
                rw [← hm2]
                exact (put_put hm1).symm
              have hput : putIn b2 (off + fo) (.entry k') = putIn b1 (off + fo) (.entry k') := funext fun n => put_put hb2
              have hchild' := hchild.then (pc' := .recurObjEnd) (si' := r) (K' := K₁ r fs) (n' := (flatten (s.ti + 1) v).length)
                (E' := fun s' => (s'.dyn r).offset = 0 ∧ Saved pr r p s'.dyn d0) (fun s1 g1 g2 g3 g4 g6 g7 _ =>
                  ⟨s1, Reach.refl _ _, g2, g3, g4, rfl, fun j hj => g6 j (K₀_of hj), g7, by
                    simp only [Saved, g6 r (K₀_iff.2 (.inl rfl)), upd, if_pos]; exact ⟨ho, hsv⟩⟩)
              have hin := PostQ.into (n := 1 + (flatten (s.ti + 1) v).length) (b1 := b2) (off := off + fo) (sel := .entry k') (Reach.one hs)
                (by simp only []; omega) hm2'
                (fun j hj => by
                  have : j ≠ r := by unfold K₁ at hj; omega
                  simp only [upd, if_neg this])
                hchild'
              rw [hput] at hin
              simp only []
              cases hres : (decR pr.x pr.src pr.options size fs n v eb' 0).bindB (putIn b1 (off + fo) (.entry k')) with
              | err i' er b' => rw [hres] at hin; exact hin
              | crash => rw [hres] at hin; exact hin
              | unsup => trivial
              | ok b3 =>
                rw [hres] at hin
                obtain ⟨s3, h1, h2, h3, h4, h5, h6, h7, h8, h9⟩ := hin
                have hst3 : step pr s3 = onRecurObjEnd pr s3 f := by simp [step, h2, h3, hr.hf]
                simp only [onRecurObjEnd, h3, h9.1, hc, hct] at hst3
                have htk3 : pr.toks.drop s3.ti = flattenM s3.ti ms ++ te :: rest := by
                  rw [h4]
                  have e1 : s.ti + (1 + (flatten (s.ti + 1) v).length) = s.ti + 1 + (flatten (s.ti + 1) v).length := by omega
                  rw [e1]
                  exact toks_drop hpre.toks
                refine PostQ.trans (h1.trans (Reach.one hst3)) ?_ h5 ?_ (ihm _ b3 te rest rfl rfl ?_ ?_ ?_ htk3 hte (get_put h5) ?_ (fun m hm => hms m (List.mem_cons_of_mem _ hm)))
                · have hl : (flattenM s3.ti ms).length = (flattenM (s.ti + 1 + (flatten (s.ti + 1) v).length) ms).length := flattenM_len _ _ _
                  simp only [flattenM, List.length_cons, List.length_append, hl]; omega
                · intro j hj
                  have : j ≠ p := by unfold K₁ at hj; omega
                  simp only [upd, if_neg this]
                  exact h6 j hj
                · simp only [upd, if_pos, RecFrame.destAt]; exact hd0
                · simp only [upd, if_neg hpr.symm]; exact h8
                · simp only [Saved, upd, if_neg hpr.symm]; exact h9
                · exact h7.upd_dest p (g := fun y => { y with dest := RecFrame.destAt ⟨d0.dest, d0.offset, p, pr.epoch⟩ pr.epoch }) rfl rfl

/-- A recursive map. -/
theorem field_map {pr : Prog} {size : Nat} {fs : RFields} {r : Nat} {f : Frame} (hr : RecAt pr size fs r f) {n : Nat} (hval : ValSim pr size fs r n) {s : St}
    {p : Nat} {path : List Step} {off fo : Nat} {here top : Bool} {blk : Block} {v : JVal} {rest : List Token} {c fk : Frame} {k : KeyTy}
    (h : FPre pr s r f p path off fo here top blk v rest) (hc : pr.frames[p]? = some c) (hcp : c.parent = some r) (hct : c.type = .mapRecur) (hcr : c.recurFrame = r)
    (hco : c.offset = fo) (hvs : c.mapValueSize = size) (hfast : c.faststr = true → c.mapValueSize ≤ 128) (hfk : pr.frames[p + 1]? = some fk) (hkr : k.Rep fk)
    (hlo : r < p) (hhi : p + 2 ≤ r + 1 + widthR fs) (hmem : ∃ q ∈ f.fields, q.2 = p) (hother : ∀ q ∈ f.fields, ¬ (p < q.2 ∧ q.2 < p + 2))
    (ht : TameField pr.x pr.src pr.options (TameR pr.x pr.src pr.options fs n) here top (.map k) v) :
    FPost pr s r fs f path off here (.map k) v (fieldB pr.x pr.src pr.options size (decR pr.x pr.src pr.options size fs n) (.map k) v blk (off + fo)) := by
  by_cases hob : ∃ i ms k, v = .obj i ms k
  · obtain ⟨i, ms, k1, rfl⟩ := hob
    simp only [TameField] at ht
    obtain ⟨hh, htp, hk, hm, hms⟩ := ht i ms k1 rfl
    have hs := step_obj h.pre hc
    have htk := h.pre.toks
    simp only [flatten] at htk
    have hm0 : ¬ ms.length = 0 := by simpa using hm
    have hpr : p ≠ r := by omega
    simp only [onObject, hct, hcr, hr.hf, h.pre.sp, ensureMap_at h.pre.blk, hm0, if_false] at hs
    simp only [fieldB]
    cases hen : ensureMap pr.x.W blk (.at ⟨[], off + fo⟩) with
    | none => rw [hen] at hs; exact Halts.one hs (by simp)
    | some b1 =>
      rw [hen] at hs
      obtain ⟨m1, hm1⟩ := putBlock_total b1 h.pre.blk
      simp only [Option.bind_some, hm1] at hs
      simp only []
      obtain ⟨q0, hq0, hq0p⟩ := hmem
      have hdp : (s.dyn p).dest = .at ⟨path, off⟩ := hq0p ▸ h.dests q0 hq0
      have hloop := entries_loop hr hval hc hcp hct hcr hvs hfast hfk hkr hk hlo (by omega) (s.dyn r) path off fo hco (h.here hh) ms
        { s with mem := m1, ti := s.ti + 1, dyn := upd s.dyn r fun y => { y with rstack := ⟨y.dest, y.offset, s.si, pr.epoch⟩ :: y.rstack } }
        b1 ⟨.objectEnd, k1, k1 + 1, 0⟩ rest h.pre.pc h.pre.si (by simp only [upd, if_neg hpr]; exact hdp) (by simp only [upd, if_pos]; exact h.top htp)
        (by simp [Saved, upd, h.pre.si])
        (by
          simp only []
          have := toks_drop (t := [_]) (r := flattenM (s.ti + 1) ms ++ ⟨.objectEnd, k1, k1 + 1, 0⟩ :: rest) (by rw [htk]; simp; rfl)
          simpa using this)
        rfl (get_put hm1) (h.pre.dyn.of_rec hr.hf hr.hty (fun j hj => if_neg hj)) hms
      have hin := PostQ.trans (n := (flatten s.ti (.obj i ms k1)).length) (Reach.one hs) (by simp [flatten]; omega) hm1 (fun j hj => by
            have : j ≠ r := by unfold K₁ at hj; omega
            simp only [upd, if_neg this]) hloop
      refine PostQ.then hin ?_
      intro s1 g1 g2 g3 g4 g6 g7 g8
      refine ⟨s1, Reach.refl _ _, g2, g3, g4, rfl, ?_, g7, ?_⟩
      · intro j hj
        rcases K₀_iff.1 hj with rfl | hj
        · exact g8.1
        · exact g6 j hj
      · intro _ q hq
        rw [g8.2 q hq]
        exact h.here hh
  · have hdec : fieldB pr.x pr.src pr.options size (decR pr.x pr.src pr.options size fs n) (.map k) v blk (off + fo) =
        execB pr.x none 0 false blk (off + fo) v.index (leaf pr.x pr.src .mapRecur v) := by
      rw [leaf_mapRecur]
      cases v <;> first | rfl | exact absurd ⟨_, _, _, rfl⟩ hob
    rw [hdec]
    refine field_end hr (w := 2) h hc hcp ?_ hlo hhi hother
    cases v with
    | obj i ms k => exact absurd ⟨_, _, _, rfl⟩ hob
    | arr i es k => exact sim_mismatch h.pre hc _ (.inl ⟨i, es, k, rfl, fun t => by simp [onArray, hct]⟩)
    | null _ _ | bool _ _ _ | num _ _ _ | str _ _ =>
      rw [← hct]
      exact sim_leaf h.pre hc rfl (by rw [hct]; simp)

end Verif.Proof.Sim

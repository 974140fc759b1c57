import Verif.Proof.SimInsideStruct
/-!
# Recursive structs inside other types: whole documents
-/
namespace Verif.Proof.Sim
open Verif.Model Verif.Big Verif.Spec Verif.Proof.Mem Verif.Proof.Any Verif.Proof.Fields

/-- What the machine does with a whole document; the recursive structs are at rest afterwards. -/
def TopX (pr : Prog) (s : St) (path : List Step) : Res → Prop
  | .ok blk' => ∃ s', Halts pr s (.done s') ∧ putBlock s.mem path blk' = some s'.mem ∧ s'.dyn 0 = s.dyn 0 ∧ DynOK pr.frames s'.dyn ∧ Idle pr.frames s'.dyn
  | .err i e blk' => ∃ s', Halts pr s (.err i e s') ∧ putBlock s.mem path blk' = some s'.mem ∧ DynOK pr.frames s'.dyn
  | .crash => Halts pr s .crash
  | .unsup => True

theorem PostX.top {pr : Prog} {s : St} {w : Nat} {path : List Step} {v : JVal} {r : Res} (hb : TopFrame pr.frames 0)
    (ht : pr.toks.drop s.ti = flatten s.ti v ++ []) (h : PostX pr s 0 w path (flatten s.ti v).length r) : TopX pr s path r := by
  cases r with
  | ok blk' =>
    obtain ⟨s1, h1, h2, h3, h4, h5, h6, h7, h8⟩ := h
    obtain ⟨s2, k1, k2, k3⟩ := top_end hb h2 h3 (by rw [h4]; exact toks_drop ht)
    exact ⟨s2, h1.halts k1, by rw [k2]; exact h5, by rw [k3]; exact h6 0 (by omega), by rw [k3]; exact h7, by rw [k3]; exact h8⟩
  | err i e blk' => exact h
  | crash => exact h
  | unsup => trivial

/-- Changes to the offset of an element. -/
theorem Idle.upd_elem {fr : List Frame} {d : Nat → Dyn} (h : Idle fr d) {i b : Nat} {c f : Frame} (hc : fr[i]? = some c) (hp : c.parent = some b) (hf : fr[b]? = some f)
    (hty : f.type = .slice) {g : Dyn → Dyn} (hr : (g (d i)).rstack = (d i).rstack) : Idle fr (upd d i g) := by
  intro j c' hc' hty'
  by_cases hj : j = i
  · subst hj
    rw [hc] at hc'; cases hc'
    simp only [upd, if_pos]
    refine ⟨by rw [hr]; exact (h j c hc hty').1, ?_, ?_⟩
    · intro p q hp' hq hqt
      rw [hp] at hp'; cases hp'
      rw [hf] at hq; cases hq
      rw [hty] at hqt; rcases hqt with hqt | hqt <;> cases hqt
    · intro hp'; rw [hp] at hp'; cases hp'
  · simp only [upd, if_neg hj]; exact h j c' hc' hty'

/-- The elements of a slice of a recursive struct type at the root. -/
theorem top_sliceLoop {pr : Prog} {b w esz : Nat} {f c : Frame} {g : JVal → Block → Nat → Res} {T : Bool → JVal → Prop} (hf : pr.frames[b]? = some f) (hty : f.type = .slice)
    (hc : pr.frames[b + 1]? = some c) (hcp : c.parent = some b) (hct : c.type = .structRecur) (hcs : c.size = esz) (hw : 0 < w) (ih : SimX pr (b + 1) w g T) :
    ∀ (vs : List JVal) (k : Nat) (s : St) (path : List Step) (off : Nat) (blk : Block) (te : Token) (rest : List Token),
    s.pc = .loop → s.si = b + 1 → (s.dyn (b + 1)).dest.add (s.dyn (b + 1)).offset = .at ⟨path, off⟩ →
    pr.toks.drop s.ti = flattenL s.ti vs ++ te :: rest → te.type = .arrayEnd → getBlock s.mem path = some blk → DynOK pr.frames s.dyn → Idle pr.frames s.dyn →
    (k = 0 → (s.dyn (b + 1)).offset = 0) → (∀ j v, vs[j]? = some v → T (k + j == 0) v) →
    PostQ pr s .loop (b + 1) (fun j => ¬ (b < j ∧ j < b + (1 + w))) (fun s' => Idle pr.frames s'.dyn) path ((flattenL s.ti vs).length + 1) (elemsB g esz vs blk off) := by
  intro vs
  induction vs with
  | nil =>
    intro k s path off blk te rest hpc hsi hp htk hte hb hd hi h0 ht
    simp only [flattenL, List.nil_append] at htk
    simp only [flattenL, elemsB, List.length_nil, Nat.zero_add]
    have hs := step_loop hpc (toks_head htk) (by rw [hsi]; exact hc)
    simp only [dispatch, hte, onArrayEnd, if_pos hct, hsi, (hi _ _ hc hct).1] at hs
    have hs2 : step pr ({ s with ti := s.ti + 1, si := b + 1, pc := PC.valEnd } : St) = onValEnd pr ({ s with ti := s.ti + 1, si := b + 1, pc := PC.valEnd } : St) c := by
      simp [step, hc]
    simp only [onValEnd, hcp, hf, hty] at hs2
    refine ⟨_, (Reach.one hs).trans (Reach.one hs2), rfl, rfl, rfl, put_get hb, ?_, ?_, ?_⟩
    · intro j hj
      have : j ≠ b + 1 := by omega
      simp only [upd, if_neg this]
    · exact hd.upd_elem (g := fun y => { y with offset := y.offset + c.size }) hc hcp hf (.inr hty) rfl
    · exact hi.upd_elem (g := fun y => { y with offset := y.offset + c.size }) hc hcp hf hty rfl
  | cons v vs ihv =>
    intro k s path off blk te rest hpc hsi hp htk hte hb hd hi h0 ht
    simp only [flattenL, List.append_assoc] at htk
    have hpre : Pre pr s (b + 1) path off blk v (flattenL (s.ti + (flatten s.ti v).length) vs ++ te :: rest) :=
      ⟨hpc, hsi, hp, htk, hb, hd⟩
    have hchild := ih s v path off blk _ (k + 0 == 0) hpre hi (by simpa using h0) (ht 0 v rfl)
    simp only [elemsB]
    cases hdec : g v blk off with
    | err i er b' => rw [hdec] at hchild; exact hchild
    | crash => rw [hdec] at hchild; exact hchild
    | unsup => trivial
    | ok b' =>
      rw [hdec] at hchild
      obtain ⟨s1, h1, h2, h3, h4, h5, h6, h7, h8⟩ := hchild
      have hb1 := get_put h5
      have hdyn1 : s1.dyn (b + 1) = s.dyn (b + 1) := h6 _ (by omega)
      have hst : step pr s1 = onValEnd pr s1 c := by simp [step, h2, h3, hc]
      simp only [onValEnd, hcp, hf, hty] at hst
      have htk1 : pr.toks.drop s1.ti = flattenL s1.ti vs ++ te :: rest := by
        rw [h4]; exact toks_drop htk
      refine PostQ.trans (h1.trans (Reach.one hst)) ?_ h5 ?_ (ihv (k + 1) _ path (off + esz) b' te rest rfl ?_ ?_ htk1 hte hb1 ?_ ?_ (by omega)
        (fun j v hv => ?_))
      · simp only [h4, flattenL, List.length_append]; omega
      · intro j hj
        have hj' : j ≠ s1.si := by rw [h3]; omega
        simp only [upd, if_neg hj']
        exact h6 j (by omega)
      · simp only [h3]
      · simp only [upd, h3, if_pos, hdyn1]
        rw [hcs]
        exact add_size hp _
      · exact h7.upd_elem (b := b) (g := fun y => { y with offset := y.offset + c.size }) (i := s1.si) (by rw [h3]; exact hc) hcp hf (.inr hty) rfl
      · exact h8.upd_elem (g := fun y => { y with offset := y.offset + c.size }) (i := s1.si) (c := c) (by rw [h3]; exact hc) hcp hf hty rfl
      · have := ht (j + 1) v (by simpa using hv)
        have e : k + 1 + j = k + (j + 1) := by omega
        rw [e]; exact this

theorem top_slice_self {pr : Prog} {size : Nat} {fs : RFields} {f c : Frame} {n : Nat} (hf : pr.frames[0]? = some f) (hty : f.type = .slice) (hroot : f.parent = none)
    (hc : pr.frames[1]? = some c) (hcp : c.parent = some 0) (hr : RepRec pr.x pr.frames size fs 1)
    {s : St} {v : JVal} {path : List Step} {off : Nat} {blk : Block} (h : Pre pr s 0 path off blk v []) (hi : Idle pr.frames s.dyn)
    (ht : TameDocX pr.x pr.src pr.options n (.slice (.self size fs)) v) :
    TopX pr s path (decX pr.x pr.src pr.options n (.slice (.self size fs)) v blk off) := by
  have hW := W_pos pr.x
  have hb : TopFrame pr.frames 0 := ⟨f, hf, .inl hroot⟩
  obtain ⟨c', hc', hct, hcs, hrf⟩ := hr
  rw [hc] at hc'; cases hc'
  have ih := simX_self (pr := pr) (r := 1) ⟨c, hc, hct, hcs, hrf⟩ n
  cases v with
  | arr i vs k =>
    have hs := step_arr h hf
    have htk := h.toks
    simp only [flatten] at htk
    simp only [onArray, hty] at hs
    rw [h.si, hc] at hs
    simp only [] at hs
    simp only [TameDocX] at ht
    have hco : RTy.etype (.self size fs) = c.type := hct.symm
    simp only [decX, sliceB, RTy.size, hco]
    by_cases hv : vs = []
    · subst hv
      simp only [List.length_nil, if_true] at hs
      rw [if_pos rfl]
      refine PostX.top (w := 0) (v := .arr i [] k) hb h.toks (post_widen0 hi (post_store (n := 2) h ?_))
      rw [hs, h.sp]; simp only [h.si]; rfl
    · rw [if_neg (by simpa using hv)] at hs
      rw [if_neg hv]
      rw [h.sp, readCell_at h.blk] at hs
      cases hh : sliceHdr blk[off]? with
      | none => rw [hh] at hs; exact Halts.one hs (by simp)
      | some t =>
        obtain ⟨l, cp, a⟩ := t
        rw [hh] at hs
        simp only [hcs, writeSeg_at h.blk] at hs
        simp only []
        cases hbl : blit blk off (seg (3 * pr.x.W) (growSlice size vs.length c.type.isElemComposite l cp a)) with
        | none => rw [hbl] at hs; exact Halts.one hs (by simp)
        | some b1 =>
          rw [hbl] at hs
          obtain ⟨m1, hm1⟩ := putBlock_total b1 h.blk
          simp only [Option.bind_some, hm1] at hs
          obtain ⟨l', c', a', hg⟩ := growSlice_slice size vs.length c.type.isElemComposite l cp a
          have hcell := blit_seg_get (by omega) hbl
          rw [hg] at hcell
          have harr : getBlock b1 [⟨off, .arr⟩] = some a' := by simp [getBlock, hcell, ownedBlock]
          simp only [harr]
          have hpath : getBlock m1 (path ++ [⟨off, .arr⟩]) = some a' := by
            rw [getBlock_append, get_put hm1]; exact harr
          have hloop := top_sliceLoop hf hty hc hcp hct hcs (by omega) ih vs 0
            { s with mem := m1, ti := s.ti + 1, si := 1, dyn := upd s.dyn 1 fun y => { y with dest := .at (Addr.into ⟨path, off⟩ .arr), offset := 0 } }
            (path ++ [⟨off, .arr⟩]) 0 a' ⟨.arrayEnd, k, k + 1, 0⟩ [] h.pc rfl
            (by simp [upd, Ptr.add, Addr.into])
            (by
              simp only []
              have := toks_drop (t := [_]) (r := flattenL (s.ti + 1) vs ++ ⟨.arrayEnd, k, k + 1, 0⟩ :: []) (by rw [htk]; simp; rfl)
              simpa using this)
            rfl hpath
            (h.dyn.upd_elem (g := fun y => { y with dest := .at (Addr.into ⟨path, off⟩ .arr), offset := 0 }) (i := 1) hc hcp hf (.inr hty) rfl)
            (hi.upd_elem (g := fun y => { y with dest := .at (Addr.into ⟨path, off⟩ .arr), offset := 0 }) (i := 1) hc hcp hf hty rfl) (fun _ => by simp [upd]) (fun j v hv => by simpa using ht j v hv)
          have hall : PostQ pr s .loop 1 (fun j => ¬ (0 < j ∧ j < 0 + (1 + (1 + widthR fs)))) (fun s' => Idle pr.frames s'.dyn) path (flatten s.ti (.arr i vs k)).length
              ((elemsB (decR pr.x pr.src pr.options size fs n) size vs a' 0).bindB (putIn b1 off .arr)) := by
            refine PostQ.into (Reach.one hs) ?_ hm1 ?_ hloop
            · simp [flatten]; omega
            · intro j hj
              have : j ≠ 1 := by omega
              simp only [upd, if_neg this]
          simp only [Nat.zero_add] at hall
          generalize hres : (elemsB (decR pr.x pr.src pr.options size fs n) size vs a' 0).bindB (putIn b1 off .arr) = res at hall
          cases res with
          | ok blk' =>
            obtain ⟨s1, h1, h2, h3, h4, h5, h6, h7, h8⟩ := hall
            have hend := step_done h2 (by rw [h4]; exact toks_drop h.toks)
            exact ⟨s1, h1.halts (Halts.one hend (by simp)), h5, h6 0 (by omega), h7, h8⟩
          | err i e b => exact hall
          | crash => exact hall
          | unsup => trivial
  | obj i es k => exact PostX.top (w := 0) hb h.toks (post_widen0 hi (sim_mismatch h hf _ (.inr ⟨i, es, k, rfl, fun t => by simp [onObject, hty]⟩)))
  | null _ _ | bool _ _ _ | num _ _ _ | str _ _ =>
    simp only [decX]
    rw [← hty]
    exact PostX.top (w := 0) hb h.toks (post_widen0 hi (sim_leaf h hf rfl (by rw [hty]; simp)))

/-- A whole document. -/
theorem top_inside {pr : Prog} {ty : RTy} {f : Frame} {n : Nat} (hr : RepX pr.x pr.frames ty 0) (hf : pr.frames[0]? = some f) (hroot : f.parent = none)
    {s : St} {v : JVal} {path : List Step} {off : Nat} {blk : Block} (h : Pre pr s 0 path off blk v []) (hi : Idle pr.frames s.dyn) (h0 : (s.dyn 0).offset = 0)
    (ht : TameDocX pr.x pr.src pr.options n ty v) :
    TopX pr s path (decX pr.x pr.src pr.options n ty v blk off) := by
  have hgen : TameX pr.x pr.src pr.options n ty true v → TopX pr s path (decX pr.x pr.src pr.options n ty v blk off) := fun ht =>
    PostX.top ⟨f, hf, .inl hroot⟩ h.toks (simX n hr s v path off blk [] true h hi (fun _ => h0) ht)
  match ty, hr, ht, hgen with
  | .slice (.self size fs), hr, ht, _ =>
    obtain ⟨⟨f', hf', hty, -⟩, ⟨c, hc, hcp, -⟩, hre⟩ := hr
    rw [hf] at hf'; cases hf'
    exact top_slice_self hf hty hroot hc hcp hre h hi ht
  | .slice (.plain _), _, ht, hgen | .slice (.array _ _), _, ht, hgen | .slice (.slice _), _, ht, hgen | .slice (.map _ _), _, ht, hgen | .slice (.struct _ _), _, ht, hgen
  | .plain _, _, ht, hgen | .self _ _, _, ht, hgen | .array _ _, _, ht, hgen | .map _ _, _, ht, hgen | .struct _ _, _, ht, hgen => exact hgen ht

end Verif.Proof.Sim

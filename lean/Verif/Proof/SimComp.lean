import Verif.Proof.SimFlat
import Verif.Proof.Fields
/-!
# The token loop follows the type-directed reading: arrays, slices, maps, structs
-/
namespace Verif.Proof.Sim
open Verif.Model Verif.Big Verif.Proof.Mem Verif.Proof.Any

/-- `Post` with the final frame `si` and the range `(lo, hi)` of the frames that may change given separately. -/
def PostG (pr : Prog) (s : St) (si lo hi : Nat) (path : List Step) (n : Nat) : Res → Prop
  | .ok blk' => ∃ s', Reach pr s s' ∧ s'.pc = .valEnd ∧ s'.si = si ∧ s'.ti = s.ti + n ∧ putBlock s.mem path blk' = some s'.mem ∧
      (∀ j, ¬ (lo < j ∧ j < hi) → s'.dyn j = s.dyn j) ∧ DynOK pr.frames s'.dyn
  | .err i e blk' => ∃ s', Halts pr s (.err i e s') ∧ putBlock s.mem path blk' = some s'.mem ∧ DynOK pr.frames s'.dyn
  | .crash => Halts pr s .crash
  | .unsup => True

theorem post_iff {pr : Prog} {s : St} {b w : Nat} {path : List Step} {n : Nat} {r : Res} :
    Post pr s b w path n r ↔ PostG pr s b b (b + w) path n r := by
  cases r <;> exact Iff.rfl

theorem PostG.trans {pr : Prog} {s s1 : St} {si lo hi : Nat} {path : List Step} {n n1 : Nat} {r : Res} {b1 : Block}
    (h : Reach pr s s1) (hn : s1.ti + n1 = s.ti + n) (hm : putBlock s.mem path b1 = some s1.mem)
    (hd : ∀ j, ¬ (lo < j ∧ j < hi) → s1.dyn j = s.dyn j) (hr : PostG pr s1 si lo hi path n1 r) : PostG pr s si lo hi path n r := by
  cases r with
  | ok blk' =>
    obtain ⟨s', h1, h2, h3, h4, h5, h6, h7⟩ := hr
    exact ⟨s', h.trans h1, h2, h3, by omega, by rw [← h5, put_put hm], fun j hj => by rw [h6 j hj, hd j hj], h7⟩
  | err i e blk' =>
    obtain ⟨s', h1, h2, h3⟩ := hr
    exact ⟨s', h.halts h1, by rw [← h2, put_put hm], h3⟩
  | crash => exact h.halts hr
  | unsup => trivial

theorem PostG.widen {pr : Prog} {s : St} {si lo hi lo' hi' : Nat} {path : List Step} {n : Nat} {r : Res} (h : lo' ≤ lo) (h' : hi ≤ hi')
    (hr : PostG pr s si lo hi path n r) : PostG pr s si lo' hi' path n r := by
  cases r with
  | ok blk' =>
    obtain ⟨s', h1, h2, h3, h4, h5, h6, h7⟩ := hr
    exact ⟨s', h1, h2, h3, h4, h5, fun j hj => h6 j (by omega), h7⟩
  | err i e blk' => exact hr
  | crash => exact hr
  | unsup => trivial

theorem PostG.into {pr : Prog} {s s1 : St} {si lo hi : Nat} {path : List Step} {n n1 : Nat} {r : Res} {b1 : Block} {off : Nat} {sel : Sel}
    (h : Reach pr s s1) (hn : s1.ti + n1 = s.ti + n) (hm : putBlock s.mem path b1 = some s1.mem)
    (hd : ∀ j, ¬ (lo < j ∧ j < hi) → s1.dyn j = s.dyn j)
    (hr : PostG pr s1 si lo hi (path ++ [⟨off, sel⟩]) n1 r) : PostG pr s si lo hi path n (r.bindB (putIn b1 off sel)) := by
  have hb1 := get_put hm
  have key : ∀ a m', putBlock s1.mem (path ++ [⟨off, sel⟩]) a = some m' → ∃ b', putIn b1 off sel a = some b' ∧ putBlock s.mem path b' = some m' := by
    intro a m' ha
    rw [putBlock_append hb1] at ha
    cases hp : putBlock b1 [⟨off, sel⟩] a with
    | none => rw [hp] at ha; cases ha
    | some b' =>
      rw [hp] at ha
      exact ⟨b', hp, by rw [← put_put hm]; exact ha⟩
  cases r with
  | ok blk' =>
    obtain ⟨s', h1, h2, h3, h4, h5, h6, h7⟩ := hr
    obtain ⟨b', hb', hm'⟩ := key _ _ h5
    simp only [Res.bindB, hb']
    exact ⟨s', h.trans h1, h2, h3, by omega, hm', fun j hj => by rw [h6 j hj, hd j hj], h7⟩
  | err i e blk' =>
    obtain ⟨s', h1, h2, h3⟩ := hr
    obtain ⟨b', hb', hm'⟩ := key _ _ h2
    simp only [Res.bindB, hb']
    exact ⟨s', h.halts h1, hm', h3⟩
  | crash => exact h.halts hr
  | unsup => trivial

/-! ## Elements of arrays and slices -/

mutual
theorem skip_flatten : ∀ (v : JVal) (l ti : Nat) (r : List Token),
    skipExtra (l + 1) (flatten ti v ++ r) = (skipExtra (l + 1) r).map (· + (flatten ti v).length)
  | .null _ _, l, ti, r | .str _ _, l, ti, r => by simp [flatten, skipExtra]
  | .bool b _ _, l, ti, r => by cases b <;> simp [flatten, skipExtra]
  | .num b _ _, l, ti, r => by cases b <;> simp [flatten, skipExtra]
  | .arr i es k, l, ti, r => by
    simp only [flatten, List.cons_append, List.append_assoc, skipExtra]
    rw [skip_flattenL]
    simp only [List.nil_append, skipExtra]
    rw [if_neg (by omega)]
    simp only [Nat.add_sub_cancel, Option.map_map, List.length_cons, List.length_append, List.length_nil]
    congr 1; funext n; simp; omega
  | .obj i ms k, l, ti, r => by
    simp only [flatten, List.cons_append, List.append_assoc, skipExtra]
    rw [skip_flattenM]
    simp only [List.nil_append, skipExtra]
    simp only [Option.map_map, List.length_cons, List.length_append, List.length_nil]
    congr 1; funext n; simp; omega
theorem skip_flattenL : ∀ (vs : List JVal) (l ti : Nat) (r : List Token),
    skipExtra (l + 1) (flattenL ti vs ++ r) = (skipExtra (l + 1) r).map (· + (flattenL ti vs).length)
  | [], l, ti, r => by simp [flattenL]
  | v :: vs, l, ti, r => by
    simp only [flattenL, List.append_assoc]
    rw [skip_flatten, skip_flattenL]
    simp only [Option.map_map, List.length_append]
    congr 1; funext n; simp; omega
theorem skip_flattenM : ∀ (ms : List ((Nat × Nat) × JVal)) (l ti : Nat) (r : List Token),
    skipExtra (l + 1) (flattenM ti ms ++ r) = (skipExtra (l + 1) r).map (· + (flattenM ti ms).length)
  | [], l, ti, r => by simp [flattenM]
  | ((i, e), v) :: ms, l, ti, r => by
    simp only [flattenM, List.cons_append, List.append_assoc, skipExtra]
    rw [skip_flatten, skip_flattenM]
    simp only [Option.map_map, List.length_append, List.length_cons]
    congr 1; funext n; simp; omega
end

theorem width_pos (ty : Ty) : 0 < ty.width := by cases ty <;> simp only [Ty.width] <;> omega

theorem etype_ne (ty : Ty) : ty.etype ≠ .structRecur := by cases ty <;> simp [Ty.etype]

/-- The closing bracket, with the element frame as the current frame. -/
theorem sim_arrayEnd {pr : Prog} {s : St} {b w : Nat} {path : List Step} {blk : Block} {c : Frame} {te : Token} {rest : List Token}
    (hpc : s.pc = .loop) (hsi : s.si = b + 1) (hc : pr.frames[b + 1]? = some c) (hne : c.type ≠ .structRecur)
    (htk : pr.toks.drop s.ti = te :: rest) (hte : te.type = .arrayEnd)
    (hb : getBlock s.mem path = some blk) (hd : DynOK pr.frames s.dyn) : PostG pr s b b (b + w) path 1 (.ok blk) := by
  have hs := step_loop hpc (toks_head htk) (by rw [hsi]; exact hc)
  simp only [dispatch, hte, onArrayEnd, if_neg hne, hsi, decSi] at hs
  rw [if_neg (by omega)] at hs
  exact ⟨_, Reach.one hs, rfl, rfl, rfl, put_get hb, fun _ _ => rfl, hd⟩

/-- The loop over the elements of an array. -/
theorem sim_arrLoop {pr : Prog} {b n : Nat} {e : Ty} (hr : Rep pr.x pr.frames (.array n e) b) (ih : SimAt pr e (b + 1)) :
    ∀ (vs : List JVal) (s : St) (path : List Step) (off k : Nat) (blk : Block) (te : Token) (rest : List Token),
    s.pc = .loop → s.si = b + 1 → (s.dyn (b + 1)).dest.add (s.dyn (b + 1)).offset = .at ⟨path, off⟩ → (s.dyn (b + 1)).len = k → k < n →
    pr.toks.drop s.ti = flattenL s.ti vs ++ te :: rest → te.type = .arrayEnd → getBlock s.mem path = some blk → DynOK pr.frames s.dyn →
    PostG pr s b b (b + (1 + e.width)) path ((flattenL s.ti vs).length + 1)
      (elemsB (dec pr.x pr.src pr.options e) (e.size pr.x) (vs.take (n - k)) blk off) := by
  intro vs
  obtain ⟨⟨f, hf, hty, hsz⟩, hn, ⟨c, hc, hcp, hcap⟩, hre⟩ := hr
  obtain ⟨c', hc', hct, hcs⟩ := hre.frame
  rw [hc] at hc'; cases hc'
  have hne : c.type ≠ .structRecur := hct ▸ etype_ne e
  have hw := width_pos e
  induction vs with
  | nil =>
    intro s path off k blk te rest hpc hsi hp hlen hk htk hte hb hd
    simp only [flattenL, List.nil_append] at htk
    simp only [flattenL, List.take_nil, elemsB, List.length_nil, Nat.zero_add]
    exact sim_arrayEnd hpc hsi hc hne htk hte hb hd
  | cons v vs ihv =>
    intro s path off k blk te rest hpc hsi hp hlen hk htk hte hb hd
    have htake : (v :: vs).take (n - k) = v :: vs.take (n - (k + 1)) := by
      have : n - k = (n - (k + 1)) + 1 := by omega
      rw [this, List.take_succ_cons]
    rw [htake]
    simp only [flattenL, List.append_assoc] at htk
    have hpre : Pre pr s (b + 1) path off blk v (flattenL (s.ti + (flatten s.ti v).length) vs ++ te :: rest) :=
      ⟨hpc, hsi, hp, htk, hb, hd⟩
    have hchild := ih s v path off blk _ hpre
    simp only [elemsB]
    cases hdec : dec pr.x pr.src pr.options e v blk off with
    | err i er b' => rw [hdec] at hchild; exact hchild
    | crash => rw [hdec] at hchild; exact hchild
    | unsup => trivial
    | ok b' =>
      rw [hdec] at hchild
      obtain ⟨s1, h1, h2, h3, h4, h5, h6, h7⟩ := hchild
      have hb1 := get_put h5
      have hdyn1 : s1.dyn (b + 1) = s.dyn (b + 1) := h6 _ (by omega)
      have hst : step pr s1 = onValEnd pr s1 c := by simp [step, h2, h3, hc]
      simp only [onValEnd, hcp, hf, hty, hcap] at hst
      have htk1 : pr.toks.drop s1.ti = flattenL s1.ti vs ++ te :: rest := by
        rw [h4]; exact toks_drop htk
      have hlen1 : (s1.dyn (b + 1)).len = k := by rw [hdyn1, hlen]
      have hlenu : ((upd s1.dyn s1.si fun y => { y with len := y.len + 1 }) s1.si).len = k + 1 := by
        simp only [upd, if_pos, h3, hlen1]
      simp only [hlenu] at hst
      by_cases hge : k + 1 ≥ n
      · -- all the room is used: skip the rest
        rw [if_pos hge] at hst
        rw [htk1, skip_flattenL vs 0 s1.ti] at hst
        simp only [skipExtra, hte, Nat.le_refl, if_true, Option.map_some, Nat.zero_add] at hst
        have hn0 : n - (k + 1) = 0 := by omega
        rw [hn0, List.take_zero]
        simp only [elemsB]
        refine PostG.trans (h1.trans (Reach.one hst)) ?_ h5 ?_ (sim_arrayEnd (b := b) (w := 1 + e.width) (te := te) (rest := rest) rfl ?_ hc hne ?_ hte hb1 ?_)
        · simp only [h4, flattenL, List.length_append]; omega
        · intro j hj
          have hj' : j ≠ s1.si := by rw [h3]; omega
          simp only [upd, if_neg hj']
          exact h6 j (by omega)
        · simp only [h3]
        · exact toks_drop htk1
        · exact h7.upd_elem (b := b) (g := fun y => { y with len := y.len + 1 }) (i := s1.si) (by rw [h3]; exact hc) hcp hf (.inl hty) rfl
      · rw [if_neg hge] at hst
        refine PostG.trans (h1.trans (Reach.one hst)) ?_ h5 ?_ (ihv _ path (off + e.size pr.x) (k + 1) b' te rest rfl ?_ ?_ ?_ (by omega) htk1 hte hb1 ?_)
        · simp only [h4, flattenL, List.length_append]; omega
        · intro j hj
          have hj' : j ≠ s1.si := by rw [h3]; omega
          simp only [upd, if_neg hj']
          exact h6 j (by omega)
        · simp only [h3]
        · simp only [upd, h3, if_pos, hdyn1]
          rw [hcs]
          cases hdst : (s.dyn (b + 1)).dest with
          | «at» a =>
            rw [hdst] at hp
            simp only [Ptr.add, Ptr.at.injEq, Addr.mk.injEq] at hp ⊢
            exact ⟨hp.1, by omega⟩
          | nil => rw [hdst] at hp; simp [Ptr.add] at hp
          | stale => rw [hdst] at hp; simp [Ptr.add] at hp
        · simp only [upd, h3, if_pos, hlen1]
        · have hA := h7.upd_elem (b := b) (g := fun y => { y with len := y.len + 1 }) (i := s1.si) (by rw [h3]; exact hc) hcp hf (.inl hty) rfl
          exact hA.upd_elem (b := b) (g := fun y => { y with offset := y.offset + c.size }) (i := s1.si) (by rw [h3]; exact hc) hcp hf (.inl hty) rfl

theorem sim_array {pr : Prog} {b n : Nat} {e : Ty} (hr : Rep pr.x pr.frames (.array n e) b) (ih : SimAt pr e (b + 1)) : SimAt pr (.array n e) b := by
  intro s v path off blk rest h
  have hr' := hr
  obtain ⟨⟨f, hf, hty, hsz⟩, hn, ⟨c, hc, hcp, hcap⟩, hre⟩ := hr
  cases v with
  | arr i vs k =>
    have hs := step_arr h hf
    have htk := h.toks
    simp only [flatten] at htk
    simp only [onArray, hty] at hs
    simp only [dec]
    by_cases hv : vs = []
    · subst hv
      simp only [List.length_nil, Nat.lt_one_iff, if_true] at hs
      simp only [List.take_nil, elemsB]
      exact ⟨_, Reach.one hs, rfl, h.si, by simp [flatten, flattenL], put_get h.blk, fun _ _ => rfl, h.dyn⟩
    · rw [if_neg (by simpa [Nat.lt_one_iff] using hv)] at hs
      rw [post_iff]
      have hloop := sim_arrLoop hr' ih vs
        { s with ti := s.ti + 1, si := s.si + 1, dyn := upd s.dyn (s.si + 1) fun y => { y with dest := s.p, len := 0, offset := 0 } }
        path off 0 blk ⟨.arrayEnd, k, k + 1, 0⟩ rest h.pc (by simp [h.si])
        (by simp [upd, h.si, h.sp, Ptr.add]) (by simp [upd, h.si]) hn
        (by
          simp only []
          have := toks_drop (t := [_]) (r := flattenL (s.ti + 1) vs ++ ⟨.arrayEnd, k, k + 1, 0⟩ :: rest) (by rw [htk]; simp; rfl)
          simpa using this)
        rfl h.blk
        (h.dyn.upd_elem (g := fun y => { y with dest := s.p, len := 0, offset := 0 }) (i := s.si + 1) (by rw [h.si]; exact hc) hcp hf (.inl hty) rfl)
      refine PostG.trans (Reach.one hs) ?_ (put_get h.blk) ?_ hloop
      · simp [flatten]; omega
      · intro j hj
        have : j ≠ s.si + 1 := by rw [h.si]; simp only [Ty.width] at hj; have := width_pos e; omega
        simp only [upd, if_neg this]
  | obj i es k => exact sim_mismatch h hf _ (.inr ⟨i, es, k, rfl, fun t => by simp [onObject, hty]⟩)
  | null _ _ | bool _ _ _ | num _ _ _ | str _ _ =>
    simp only [dec]
    rw [← hty]
    exact sim_leaf h hf rfl (by rw [hty]; simp)

/-- Moving the offset of a pointer. -/
theorem add_size {p : Ptr} {o : Nat} {path : List Step} {off : Nat} (h : p.add o = .at ⟨path, off⟩) (n : Nat) : p.add (o + n) = .at ⟨path, off + n⟩ := by
  cases p with
  | «at» a =>
    simp only [Ptr.add, Ptr.at.injEq, Addr.mk.injEq] at h ⊢
    exact ⟨h.1, by omega⟩
  | nil => simp [Ptr.add] at h
  | stale => simp [Ptr.add] at h

/-- The loop over the elements of a slice. -/
theorem sim_sliceLoop {pr : Prog} {b : Nat} {e : Ty} (hr : Rep pr.x pr.frames (.slice e) b) (ih : SimAt pr e (b + 1)) :
    ∀ (vs : List JVal) (s : St) (path : List Step) (off : Nat) (blk : Block) (te : Token) (rest : List Token),
    s.pc = .loop → s.si = b + 1 → (s.dyn (b + 1)).dest.add (s.dyn (b + 1)).offset = .at ⟨path, off⟩ →
    pr.toks.drop s.ti = flattenL s.ti vs ++ te :: rest → te.type = .arrayEnd → getBlock s.mem path = some blk → DynOK pr.frames s.dyn →
    PostG pr s b b (b + (1 + e.width)) path ((flattenL s.ti vs).length + 1)
      (elemsB (dec pr.x pr.src pr.options e) (e.size pr.x) vs blk off) := by
  intro vs
  obtain ⟨⟨f, hf, hty, hsz⟩, ⟨c, hc, hcp, -⟩, hre⟩ := hr
  obtain ⟨c', hc', hct, hcs⟩ := hre.frame
  rw [hc] at hc'; cases hc'
  have hne : c.type ≠ .structRecur := hct ▸ etype_ne e
  have hw := width_pos e
  induction vs with
  | nil =>
    intro s path off blk te rest hpc hsi hp htk hte hb hd
    simp only [flattenL, List.nil_append] at htk
    simp only [flattenL, elemsB, List.length_nil, Nat.zero_add]
    exact sim_arrayEnd hpc hsi hc hne htk hte hb hd
  | cons v vs ihv =>
    intro s path off blk te rest hpc hsi hp htk hte hb hd
    simp only [flattenL, List.append_assoc] at htk
    have hpre : Pre pr s (b + 1) path off blk v (flattenL (s.ti + (flatten s.ti v).length) vs ++ te :: rest) :=
      ⟨hpc, hsi, hp, htk, hb, hd⟩
    have hchild := ih s v path off blk _ hpre
    simp only [elemsB]
    cases hdec : dec pr.x pr.src pr.options e v blk off with
    | err i er b' => rw [hdec] at hchild; exact hchild
    | crash => rw [hdec] at hchild; exact hchild
    | unsup => trivial
    | ok b' =>
      rw [hdec] at hchild
      obtain ⟨s1, h1, h2, h3, h4, h5, h6, h7⟩ := hchild
      have hb1 := get_put h5
      have hdyn1 : s1.dyn (b + 1) = s.dyn (b + 1) := h6 _ (by omega)
      have hst : step pr s1 = onValEnd pr s1 c := by simp [step, h2, h3, hc]
      simp only [onValEnd, hcp, hf, hty] at hst
      have htk1 : pr.toks.drop s1.ti = flattenL s1.ti vs ++ te :: rest := by
        rw [h4]; exact toks_drop htk
      refine PostG.trans (h1.trans (Reach.one hst)) ?_ h5 ?_ (ihv _ path (off + e.size pr.x) b' te rest rfl ?_ ?_ htk1 hte hb1 ?_)
      · simp only [h4, flattenL, List.length_append]; omega
      · intro j hj
        have hj' : j ≠ s1.si := by rw [h3]; omega
        simp only [upd, if_neg hj']
        exact h6 j (by omega)
      · simp only [h3]
      · simp only [upd, h3, if_pos, hdyn1]
        rw [hcs]
        exact add_size hp _
      · exact h7.upd_elem (b := b) (g := fun y => { y with offset := y.offset + c.size }) (i := s1.si) (by rw [h3]; exact hc) hcp hf (.inr hty) rfl

theorem W_pos (x : Ext) : 0 < x.W := by unfold Ext.W; split <;> omega

/-- The cell at the start of a stored value. -/
theorem blit_seg_get {b b' : Block} {off n : Nat} {c : Cell} (hn : 0 < n) (h : blit b off (seg n c) = some b') : b'[off]? = some c := by
  have := blit_get_in h (Nat.le_refl off) (by rw [seg_length]; omega)
  rw [this, Nat.sub_self, seg_head n c hn]

theorem growSlice_slice (esz n : Nat) (cp : Bool) (l c : Nat) (a : Block) : ∃ l' c' a', growSlice esz n cp l c a = .slice l' c' a' := by
  unfold growSlice
  split
  · split <;> exact ⟨_, _, _, rfl⟩
  · exact ⟨_, _, _, rfl⟩

theorem sim_slice {pr : Prog} {b : Nat} {e : Ty} (hr : Rep pr.x pr.frames (.slice e) b) (ih : SimAt pr e (b + 1)) : SimAt pr (.slice e) b := by
  intro s v path off blk rest h
  have hr' := hr
  obtain ⟨⟨f, hf, hty, hsz⟩, ⟨c, hc, hcp, -⟩, hre⟩ := hr
  obtain ⟨c', hc', hct, hcs⟩ := hre.frame
  rw [hc] at hc'; cases hc'
  have hW := W_pos pr.x
  cases v with
  | arr i vs k =>
    have hs := step_arr h hf
    have htk := h.toks
    simp only [flatten] at htk
    simp only [onArray, hty] at hs
    rw [h.si, hc] at hs
    simp only [] at hs
    simp only [dec, sliceB]
    by_cases hv : vs = []
    · subst hv
      simp only [List.length_nil, if_true] at hs
      rw [if_pos rfl]
      refine post_store (n := 2) h ?_
      rw [hs, h.sp]; simp only [h.si]; rfl
    · rw [if_neg (by simpa using hv)] at hs
      rw [if_neg hv]
      rw [h.sp, readCell_at h.blk] at hs
      cases hh : sliceHdr blk[off]? with
      | none => rw [hh] at hs; exact Halts.one hs (by simp)
      | some t =>
        obtain ⟨l, cp, a⟩ := t
        rw [hh] at hs
        simp only [hct, hcs, writeSeg_at h.blk] at hs
        simp only []
        cases hbl : blit blk off (seg (3 * pr.x.W) (growSlice (e.size pr.x) vs.length e.etype.isElemComposite l cp a)) with
        | none => rw [hbl] at hs; exact Halts.one hs (by simp)
        | some b1 =>
          rw [hbl] at hs
          obtain ⟨m1, hm1⟩ := putBlock_total b1 h.blk
          simp only [Option.bind_some, hm1] at hs
          obtain ⟨l', c', a', hg⟩ := growSlice_slice (e.size pr.x) vs.length e.etype.isElemComposite l cp a
          have hcell := blit_seg_get (by omega) hbl
          rw [hg] at hcell
          have harr : getBlock b1 [⟨off, .arr⟩] = some a' := by simp [getBlock, hcell, ownedBlock]
          simp only [harr]
          rw [post_iff]
          have hpath : getBlock m1 (path ++ [⟨off, .arr⟩]) = some a' := by
            rw [getBlock_append, get_put hm1]; exact harr
          have hloop := sim_sliceLoop hr' ih vs
            { s with mem := m1, ti := s.ti + 1, si := b + 1, dyn := upd s.dyn (b + 1) fun y => { y with dest := .at (Addr.into ⟨path, off⟩ .arr), offset := 0 } }
            (path ++ [⟨off, .arr⟩]) 0 a' ⟨.arrayEnd, k, k + 1, 0⟩ rest h.pc rfl
            (by simp [upd, Ptr.add, Addr.into])
            (by
              simp only []
              have := toks_drop (t := [_]) (r := flattenL (s.ti + 1) vs ++ ⟨.arrayEnd, k, k + 1, 0⟩ :: rest) (by rw [htk]; simp; rfl)
              simpa using this)
            rfl hpath
            (h.dyn.upd_elem (g := fun y => { y with dest := .at (Addr.into ⟨path, off⟩ .arr), offset := 0 }) (i := b + 1) hc hcp hf (.inr hty) rfl)
          refine PostG.into (Reach.one hs) ?_ hm1 ?_ hloop
          · simp [flatten]; omega
          · intro j hj
            have : j ≠ b + 1 := by simp only [Ty.width] at hj; have := width_pos e; omega
            simp only [upd, if_neg this]
  | obj i es k => exact sim_mismatch h hf _ (.inr ⟨i, es, k, rfl, fun t => by simp [onObject, hty]⟩)
  | null _ _ | bool _ _ _ | num _ _ _ | str _ _ =>
    simp only [dec]
    rw [← hty]
    exact sim_leaf h hf rfl (by rw [hty]; simp)

/-! ## Maps -/

/-- The closing brace of a map. -/
theorem sim_mapEnd {pr : Prog} {s : St} {b hi : Nat} {path : List Step} {blk : Block} {f : Frame} {te : Token} {rest : List Token}
    (hpc : s.pc = .loop) (hsi : s.si = b) (hf : pr.frames[b]? = some f) (hty : f.type = .map)
    (htk : pr.toks.drop s.ti = te :: rest) (hte : te.type = .objectEnd)
    (hb : getBlock s.mem path = some blk) (hd : DynOK pr.frames s.dyn) : PostG pr s b b hi path 1 (.ok blk) := by
  have hs := step_loop hpc (toks_head htk) (by rw [hsi]; exact hf)
  simp only [dispatch, hte, onObjectEnd, hty] at hs
  have hs2 : step pr { s with ti := s.ti + 1, pc := .recurObjEnd } = .run { s with ti := s.ti + 1, pc := .valEnd } := by
    simp [step, hsi, hf, onRecurObjEnd, hd.rs b (fun f' hf' => by rw [hf] at hf'; cases hf'; rw [hty]; decide)]
  exact ⟨_, Reach.head hs (Reach.one hs2), rfl, hsi, rfl, put_get hb, fun _ _ => rfl, hd⟩

theorem mapKeyOf_rep {x : Ext} {fk : Frame} {k : KeyTy} (h : k.Rep fk) (hk : k ≠ .other) (key : Bytes) :
    mapKeyOf x fk key = (k.key x key).map fun r => r.map some := by
  cases k with
  | str =>
    simp only [KeyTy.Rep] at h
    simp only [mapKeyOf, h, KeyTy.key]
    cases x.unescStr key <;> rfl
  | int k =>
    simp only [KeyTy.Rep] at h
    simp only [mapKeyOf, h, KeyTy.key]
    cases quotedInt x k key with
    | none => rfl
    | some r => cases r <;> rfl
  | text rt impl =>
    obtain ⟨h1, h2, h3⟩ := h
    simp only [mapKeyOf, h1, h2, h3, KeyTy.key]
    cases impl with
    | false => rfl
    | true =>
      cases Unescape.valid key with
      | none => rfl
      | some bt =>
        simp only []
        cases x.unmarshalKey rt bt <;> rfl
  | other => exact absurd rfl hk

/-- Within the contract of `mapassign_faststr` both functions do the same. -/
theorem mapAssign_eq {f : Frame} (h : f.faststr = true → f.mapValueSize ≤ 128) (W : Nat) (fk : Frame) (m : Block) (a : Addr) (k : Key) :
    mapAssign W f fk m a k = assignEntry W f.mapValueSize m a k := by
  unfold mapAssign
  rw [if_neg]
  rintro ⟨-, h1, h2⟩
  have := h h1
  omega

/-- `mapassign` at an address. -/
theorem assignEntry_at {W vsz : Nat} {m blk : Block} {path : List Step} {off : Nat} (hb : getBlock m path = some blk) (k : Key) :
    assignEntry W vsz m ⟨path, off⟩ k = (assignEntry W vsz blk ⟨[], off⟩ k).bind fun b => putBlock m path b := by
  simp only [assignEntry, readCell_at hb, readCell_at (m := blk) (p := []) rfl]
  cases mapHdr blk[off]? with
  | none => rfl
  | some r =>
    cases r with
    | none => rfl
    | some es =>
      simp only []
      cases lookupKey k es with
      | some _ => simp only [Option.bind_some, put_get hb]
      | none =>
        simp only [writeSeg_at hb, writeSeg_at (m := blk) (p := []) rfl]
        cases blit blk off (seg W (.map (es ++ [(k, zeros vsz)]))) <;> simp [putBlock]

/-- The entry made by `mapassign`. -/
theorem assignEntry_get {W vsz : Nat} (hW : 0 < W) {blk b1 : Block} {off : Nat} {k : Key} (h : assignEntry W vsz blk ⟨[], off⟩ k = some b1) :
    ∃ eb, getBlock b1 [⟨off, .entry k⟩] = some eb := by
  simp only [assignEntry, readCell_at (m := blk) (p := []) rfl] at h
  cases hc : blk[off]? with
  | none => rw [hc] at h; simp [mapHdr] at h
  | some c =>
    rw [hc] at h
    cases c with
    | map es =>
      simp only [mapHdr] at h
      cases hl : lookupKey k es with
      | some eb =>
        rw [hl] at h; cases h
        exact ⟨eb, by simp [getBlock, hc, ownedBlock, hl]⟩
      | none =>
        rw [hl] at h
        simp only [writeSeg_at (m := blk) (p := []) rfl] at h
        cases hbl : blit blk off (seg W (.map (es ++ [(k, zeros vsz)]))) with
        | none => rw [hbl] at h; simp at h
        | some b' =>
          rw [hbl] at h
          simp only [Option.bind_some, putBlock, Option.some.injEq] at h
          subst h
          have hcell := blit_seg_get hW hbl
          refine ⟨zeros vsz, ?_⟩
          simp only [getBlock, hcell, ownedBlock]
          have : ∀ es, lookupKey k es = none → lookupKey k (es ++ [(k, zeros vsz)]) = some (zeros vsz) := by
            intro es
            induction es with
            | nil => intro _; simp [lookupKey, same_refl]
            | cons e es ih =>
              intro hn
              simp only [lookupKey] at hn
              by_cases he : e.1.same k = true
              · rw [if_pos he] at hn; cases hn
              · rw [if_neg he] at hn
                simp only [List.cons_append, lookupKey, if_neg he]
                exact ih hn
          rw [this es hl]
    | _ => simp [mapHdr] at h

/-- The loop over the members of an object decoded into a map. -/
theorem sim_mapLoop {pr : Prog} {b : Nat} {k : KeyTy} {e : Ty} (hr : Rep pr.x pr.frames (.map k e) b) (ih : SimAt pr e (b + 2)) (hk : k ≠ .other) :
    ∀ (ms : List ((Nat × Nat) × JVal)) (s : St) (path : List Step) (off : Nat) (blk : Block) (te : Token) (rest : List Token),
    s.pc = .loop → s.si = b → (s.dyn b).dest.add (s.dyn b).offset = .at ⟨path, off⟩ →
    pr.toks.drop s.ti = flattenM s.ti ms ++ te :: rest → te.type = .objectEnd → getBlock s.mem path = some blk → DynOK pr.frames s.dyn →
    PostG pr s b b (b + (2 + e.width)) path ((flattenM s.ti ms).length + 1)
      (mapB pr.x pr.src (dec pr.x pr.src pr.options e) k (e.size pr.x) (e.etype == .struct) ms blk off) := by
  intro ms
  obtain ⟨⟨f, hf, hty, hsz, hvs, hfast⟩, ⟨fk, hfk, hfkp, hkr⟩, ⟨c, hc, hcp, hco⟩, hre⟩ := hr
  obtain ⟨c', hc', hct, hcs⟩ := hre.frame
  rw [hc] at hc'; cases hc'
  have hw := width_pos e
  have hW := W_pos pr.x
  induction ms with
  | nil =>
    intro s path off blk te rest hpc hsi hp htk hte hb hd
    simp only [flattenM, List.nil_append] at htk
    simp only [flattenM, mapB, List.length_nil, Nat.zero_add]
    exact sim_mapEnd hpc hsi hf hty htk hte hb hd
  | cons m ms ihm =>
    obtain ⟨⟨i, en⟩, v⟩ := m
    intro s path off blk te rest hpc hsi hp htk hte hb hd
    simp only [flattenM, List.append_assoc, List.cons_append] at htk
    have hs := step_loop hpc (toks_head htk) (by rw [hsi]; exact hf)
    have hsp : s.p = .at ⟨path, off⟩ := by simp only [St.p, hsi]; exact hp
    simp only [dispatch, onKey, hty, hsi, hfk, hsp] at hs
    simp only [mapB]
    cases hkey : Model.slice pr.src (i + 1) (en - 1) with
    | none => rw [hkey] at hs; exact Halts.one hs (by simp)
    | some key =>
      rw [hkey] at hs
      simp only [mapKeyOf_rep hkr hk] at hs ⊢
      cases hkk : k.key pr.x key with
      | none => rw [hkk] at hs; exact Halts.one hs (by simp)
      | some r =>
        rw [hkk] at hs
        cases r with
        | error er =>
          simp only [Option.map_some, Except.map] at hs
          exact ⟨s, Halts.one hs (by simp), put_get hb, hd⟩
        | ok k' =>
          simp only [Option.map_some, Except.map, mapAssign_eq hfast, assignEntry_at hb, hvs] at hs
          simp only []
          cases has : assignEntry pr.x.W (e.size pr.x) blk ⟨[], off⟩ k' with
          | none => rw [has] at hs; exact Halts.one hs (by simp)
          | some b1 =>
            obtain ⟨eb, heb⟩ := assignEntry_get hW has
            rw [has] at hs
            obtain ⟨m1, hm1⟩ := putBlock_total b1 hb
            simp only [Option.bind_some, hm1, Option.map_some] at hs
            have hne : ¬ (EType.map = EType.mapRecur) := by simp
            rw [if_neg hne, hc] at hs
            simp only [] at hs
            simp only [heb]
            have hpath : getBlock m1 (path ++ [⟨off, .entry k'⟩]) = some eb := by
              rw [getBlock_append, get_put hm1]; exact heb
            -- the state in which the value is decoded
            have main : ∀ (eb' : Block) (m2 : Block), putBlock m1 (path ++ [⟨off, .entry k'⟩]) eb' = some m2 →
                step pr s = .run { s with mem := m2, dyn := upd s.dyn (b + 2) fun y => { y with dest := .at (Addr.into ⟨path, off⟩ (.entry k')) },
                                          si := b + 2, ti := s.ti + 1 } →
                PostG pr s b b (b + (2 + e.width)) path ((flattenM s.ti (((i, en), v) :: ms)).length + 1)
                  (match (dec pr.x pr.src pr.options e v eb' 0).bindB (putIn b1 off (.entry k')) with
                    | .ok b => mapB pr.x pr.src (dec pr.x pr.src pr.options e) k (e.size pr.x) (e.etype == .struct) ms b off
                    | r => r) := by
              intro eb' m2 hm2 hst
              have hpre : Pre pr { s with mem := m2, dyn := upd s.dyn (b + 2) fun y => { y with dest := .at (Addr.into ⟨path, off⟩ (.entry k')) },
                                          si := b + 2, ti := s.ti + 1 } (b + 2) (path ++ [⟨off, .entry k'⟩]) 0 eb' v
                  (flattenM (s.ti + 1 + (flatten (s.ti + 1) v).length) ms ++ te :: rest) := by
                refine ⟨hpc, rfl, ?_, ?_, get_put hm2, hd.upd_dest (b + 2) (g := fun y => { y with dest := .at (Addr.into ⟨path, off⟩ (.entry k')) }) rfl rfl⟩
                · have := hd.off (b + 2) c b f hc (by rw [hct]; exact etype_ne e) hcp hf (.inr (.inl hty))
                  simp [upd, Ptr.add, Addr.into, this, hco]
                · have := toks_drop (t := [_]) (r := flatten (s.ti + 1) v ++ (flattenM (s.ti + 1 + (flatten (s.ti + 1) v).length) ms ++ te :: rest))
                    (by rw [htk]; simp; rfl)
                  simpa using this
              have hchild := ih _ v _ 0 eb' _ hpre
              rw [post_iff] at hchild
              -- the map after the entry has been set
              obtain ⟨b2, hb2⟩ : ∃ b2, putBlock b1 [⟨off, .entry k'⟩] eb' = some b2 := putBlock_total eb' heb
              have hm2' : putBlock s.mem path b2 = some m2 := by
                rw [putBlock_append (get_put hm1), hb2] at hm2
                rw [← hm2]
                exact (put_put hm1).symm
              have hput : putIn b2 off (.entry k') = putIn b1 off (.entry k') := funext fun n => put_put hb2
              have hin := PostG.into (n := 1 + (flatten (s.ti + 1) v).length) (b1 := b2) (off := off) (sel := .entry k') (Reach.one hst)
                (by simp only []; omega) hm2'
                (fun j hj => by
                  have : j ≠ b + 2 := by omega
                  simp only [upd, if_neg this])
                (hchild.widen (lo' := b) (hi' := b + (2 + e.width)) (by omega) (by omega))
              rw [hput] at hin
              cases hres : (dec pr.x pr.src pr.options e v eb' 0).bindB (putIn b1 off (.entry k')) with
              | err i' er b' => rw [hres] at hin; exact hin
              | crash => rw [hres] at hin; exact hin
              | unsup => trivial
              | ok b3 =>
                rw [hres] at hin
                obtain ⟨s3, h1, h2, h3, h4, h5, h6, h7⟩ := hin
                have hst3 : step pr s3 = onValEnd pr s3 c := by simp [step, h2, h3, hc]
                simp only [onValEnd, hcp, hf, hty] at hst3
                have htk3 : pr.toks.drop s3.ti = flattenM s3.ti ms ++ te :: rest := by
                  rw [h4]
                  have e1 : s.ti + (1 + (flatten (s.ti + 1) v).length) = s.ti + 1 + (flatten (s.ti + 1) v).length := by omega
                  rw [e1]
                  exact toks_drop hpre.toks
                have hdyn3 : s3.dyn b = s.dyn b := h6 _ (by omega)
                refine PostG.trans (h1.trans (Reach.one hst3)) ?_ h5 h6 (ihm _ path off b3 te rest rfl rfl ?_ htk3 hte (get_put h5) h7)
                · have hl : (flattenM s3.ti ms).length = (flattenM (s.ti + 1 + (flatten (s.ti + 1) v).length) ms).length := flattenM_len _ _ _
                  simp only [flattenM, List.length_cons, List.length_append, hl]; omega
                · simp only [hdyn3]; exact hp
            by_cases hst : e.etype = .struct
            · have hcst : c.type = .struct := hct.trans hst
              rw [hcst] at hs
              simp only [true_or, if_true, Addr.into, writeSeg_at hpath] at hs
              have hbe : (e.etype == EType.struct) = true := by simp [hst]
              simp only [hbe, if_true]
              cases hbz : blit eb 0 (zeros (e.size pr.x)) with
              | none => rw [hbz] at hs; exact Halts.one hs (by simp)
              | some eb' =>
                rw [hbz] at hs
                obtain ⟨m2, hm2⟩ := putBlock_total eb' hpath
                simp only [Option.bind_some, hm2] at hs
                have := main eb' m2 hm2 hs
                rw [hbe] at this
                exact this
            · have hcst : ¬ (c.type = .struct ∨ c.type = .structRecur) := by
                rw [hct]; intro h
                rcases h with h | h
                · exact hst h
                · exact etype_ne e h
              rw [if_neg hcst] at hs
              have hbe : (e.etype == EType.struct) = false := by simp [hst]
              simp only [hbe]
              have := main eb m1 (put_get hpath) hs
              rw [hbe] at this
              exact this

theorem ensureMap_at {W : Nat} {m blk : Block} {path : List Step} {off : Nat} (hb : getBlock m path = some blk) :
    ensureMap W m (.at ⟨path, off⟩) = (ensureMap W blk (.at ⟨[], off⟩)).bind fun b => putBlock m path b := by
  simp only [ensureMap, readCell_at hb, readCell_at (m := blk) (p := []) rfl]
  cases mapHdr blk[off]? with
  | none => rfl
  | some r =>
    cases r with
    | some es => simp only [Option.bind_some, put_get hb]
    | none =>
      simp only [writeSeg_at hb, writeSeg_at (m := blk) (p := []) rfl]
      cases blit blk off (seg W (.map [])) <;> simp [putBlock]

theorem sim_map {pr : Prog} {b : Nat} {k : KeyTy} {e : Ty} (hr : Rep pr.x pr.frames (.map k e) b) (ih : SimAt pr e (b + 2)) : SimAt pr (.map k e) b := by
  intro s v path off blk rest h
  have hr' := hr
  obtain ⟨⟨f, hf, hty, hsz, hvs, hfast⟩, ⟨fk, hfk, hfkp, hkr⟩, ⟨c, hc, hcp, hco⟩, hre⟩ := hr
  cases v with
  | obj i ms k1 =>
    have hs := step_obj h hf
    have htk := h.toks
    simp only [flatten] at htk
    simp only [onObject, hty, h.sp, ensureMap_at h.blk] at hs
    simp only [dec]
    cases hen : ensureMap pr.x.W blk (.at ⟨[], off⟩) with
    | none => rw [hen] at hs; exact Halts.one hs (by simp)
    | some b1 =>
      rw [hen] at hs
      obtain ⟨m1, hm1⟩ := putBlock_total b1 h.blk
      simp only [Option.bind_some, hm1] at hs
      simp only []
      by_cases hm : ms = []
      · subst hm
        simp only [List.length_nil, if_true] at hs
        simp only [ne_eq, not_true_eq_false, and_false, if_false, mapB]
        exact ⟨_, Reach.one hs, rfl, h.si, rfl, hm1, fun _ _ => rfl, h.dyn⟩
      · rw [if_neg (by simpa using hm)] at hs
        by_cases hk : k = .other
        · rw [if_pos ⟨hk, hm⟩]; trivial
        · rw [if_neg (fun hc => hk hc.1)]
          rw [post_iff]
          have hloop := sim_mapLoop hr' ih hk ms { s with mem := m1, ti := s.ti + 1 } path off b1 ⟨.objectEnd, k1, k1 + 1, 0⟩ rest h.pc h.si h.p
            (by
              simp only []
              have := toks_drop (t := [_]) (r := flattenM (s.ti + 1) ms ++ ⟨.objectEnd, k1, k1 + 1, 0⟩ :: rest) (by rw [htk]; simp; rfl)
              simpa using this)
            rfl (get_put hm1) h.dyn
          refine PostG.trans (Reach.one hs) ?_ hm1 (fun _ _ => rfl) hloop
          simp [flatten]; omega
  | arr i es k => exact sim_mismatch h hf _ (.inl ⟨i, es, k, rfl, fun t => by simp [onArray, hty]⟩)
  | null _ _ | bool _ _ _ | num _ _ _ | str _ _ =>
    simp only [dec]
    rw [← hty]
    exact sim_leaf h hf rfl (by rw [hty]; simp)

end Verif.Proof.Sim

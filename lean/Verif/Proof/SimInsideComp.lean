import Verif.Proof.SimInside
/-!
# Recursive structs inside other types: arrays, slices, maps and structs around them
-/
namespace Verif.Proof.Sim
open Verif.Model Verif.Big Verif.Spec Verif.Proof.Mem Verif.Proof.Any Verif.Proof.Fields

/-- `PostX` with the current frame and the range of frames given separately. -/
abbrev PostY (pr : Prog) (s : St) (b lo hi : Nat) (path : List Step) (n : Nat) (r : Res) : Prop :=
  PostQ pr s .valEnd b (fun j => ¬ (lo < j ∧ j < hi)) (fun s' => Idle pr.frames s'.dyn) path n r

theorem PostY.widen {pr : Prog} {s : St} {b lo hi lo' hi' : Nat} {path : List Step} {n : Nat} {r : Res} (h : lo' ≤ lo) (h' : hi ≤ hi')
    (hr : PostY pr s b lo hi path n r) : PostY pr s b lo' hi' path n r := by
  cases r with
  | ok blk' =>
    obtain ⟨s', h1, h2, h3, h4, h5, h6, h7⟩ := hr
    exact ⟨s', h1, h2, h3, h4, h5, fun j hj => h6 j (by omega), h7⟩
  | err i e blk' => exact hr
  | crash => exact hr
  | unsup => trivial

theorem postY_of {pr : Prog} {s : St} {b lo hi : Nat} {path : List Step} {n : Nat} {r : Res} (h : PostG pr s b lo lo path n r) (hi' : Idle pr.frames s.dyn) :
    PostY pr s b lo hi path n r := by
  cases r with
  | ok blk' =>
    obtain ⟨s', h1, h2, h3, h4, h5, h6, h7⟩ := h
    refine ⟨s', h1, h2, h3, h4, h5, fun j hj => h6 j (by omega), h7, hi'.congr fun j f hf hty => ?_⟩
    rw [h6 j (by omega)]
    exact ⟨rfl, rfl⟩
  | err i e blk' => exact h
  | crash => exact h
  | unsup => trivial

/-! ## Slices -/

/-- The loop over the elements of a slice whose elements are no recursive structs. -/
theorem simX_sliceLoop {pr : Prog} {b w esz : Nat} {f c : Frame} {g : JVal → Block → Nat → Res} {T : Bool → JVal → Prop} (hf : pr.frames[b]? = some f) (hty : f.type = .slice)
    (hc : pr.frames[b + 1]? = some c) (hcp : c.parent = some b) (hne : c.type ≠ .structRecur) (hcs : c.size = esz) (hw : 0 < w) (ih : SimX pr (b + 1) w g T) :
    ∀ (vs : List JVal) (s : St) (path : List Step) (off : Nat) (blk : Block) (te : Token) (rest : List Token),
    s.pc = .loop → s.si = b + 1 → (s.dyn (b + 1)).dest.add (s.dyn (b + 1)).offset = .at ⟨path, off⟩ →
    pr.toks.drop s.ti = flattenL s.ti vs ++ te :: rest → te.type = .arrayEnd → getBlock s.mem path = some blk → DynOK pr.frames s.dyn → Idle pr.frames s.dyn →
    (∀ v ∈ vs, T false v) →
    PostY pr s b b (b + (1 + w)) path ((flattenL s.ti vs).length + 1) (elemsB g esz vs blk off) := by
  intro vs
  induction vs with
  | nil =>
    intro s path off blk te rest hpc hsi hp htk hte hb hd hi ht
    simp only [flattenL, List.nil_append] at htk
    simp only [flattenL, elemsB, List.length_nil, Nat.zero_add]
    exact postY_of (sim_arrayEnd (w := 0) hpc hsi hc hne htk hte hb hd) hi
  | cons v vs ihv =>
    intro s path off blk te rest hpc hsi hp htk hte hb hd hi ht
    simp only [flattenL, List.append_assoc] at htk
    have hpre : Pre pr s (b + 1) path off blk v (flattenL (s.ti + (flatten s.ti v).length) vs ++ te :: rest) :=
      ⟨hpc, hsi, hp, htk, hb, hd⟩
    have hchild := ih s v path off blk _ false hpre hi (by simp) (ht v (by simp))
    simp only [elemsB]
    cases hdec : g v blk off with
    | err i er b' => rw [hdec] at hchild; exact hchild
    | crash => rw [hdec] at hchild; exact hchild
    | unsup => trivial
    | ok b' =>
      rw [hdec] at hchild
      obtain ⟨s1, h1, h2, h3, h4, h5, h6, h7, h8⟩ := hchild
      have hb1 := get_put h5
      have hdyn1 : s1.dyn (b + 1) = s.dyn (b + 1) := h6 _ (by omega)
      have hst : step pr s1 = onValEnd pr s1 c := by simp [step, h2, h3, hc]
      simp only [onValEnd, hcp, hf, hty] at hst
      have htk1 : pr.toks.drop s1.ti = flattenL s1.ti vs ++ te :: rest := by
        rw [h4]; exact toks_drop htk
      refine PostQ.trans (h1.trans (Reach.one hst)) ?_ h5 ?_ (ihv _ path (off + esz) b' te rest rfl ?_ ?_ htk1 hte hb1 ?_ ?_ (fun v hv => ht v (by simp [hv])))
      · simp only [h4, flattenL, List.length_append]; omega
      · intro j hj
        have hj' : j ≠ s1.si := by rw [h3]; omega
        simp only [upd, if_neg hj']
        exact h6 j (by omega)
      · simp only [h3]
      · simp only [upd, h3, if_pos, hdyn1]
        rw [hcs]
        exact add_size hp _
      · exact h7.upd_elem (b := b) (g := fun y => { y with offset := y.offset + c.size }) (i := s1.si) (by rw [h3]; exact hc) hcp hf (.inr hty) rfl
      · exact h8.upd_other (i := s1.si) (c := c) (by rw [h3]; exact hc) hne _

/-- The decoder of a slice. -/
def sliceG (x : Ext) (src : Bytes) (g : JVal → Block → Nat → Res) (esz : Nat) (cp : Bool) (v : JVal) (b : Block) (off : Nat) : Res :=
  match v with
  | .arr _ vs _ => sliceB x g esz cp vs b off
  | v => execB x none 0 false b off v.index (leaf x src .slice v)

/-- The elements of a slice, and what the documents satisfy. -/
def SliceT (rec_ : Prop) (T : Bool → JVal → Prop) (v : JVal) : Prop :=
  match v with
  | .arr _ vs _ => (rec_ → vs = []) ∧ ∀ w ∈ vs, T false w
  | _ => True

theorem simX_slice {pr : Prog} {b w esz : Nat} {f c : Frame} {g : JVal → Block → Nat → Res} {T : Bool → JVal → Prop} (hf : pr.frames[b]? = some f) (hty : f.type = .slice)
    (hc : pr.frames[b + 1]? = some c) (hcp : c.parent = some b) (hcs : c.size = esz) (hw : 0 < w) (ih : SimX pr (b + 1) w g T) :
    SimX pr b (1 + w) (sliceG pr.x pr.src g esz c.type.isElemComposite) (fun _ => SliceT (c.type = .structRecur) T) := by
  intro s v path off blk rest z h hi hz ht
  have hW := W_pos pr.x
  cases v with
  | arr i vs k =>
    have hs := step_arr h hf
    have htk := h.toks
    simp only [flatten] at htk
    simp only [onArray, hty] at hs
    rw [h.si, hc] at hs
    simp only [] at hs
    simp only [sliceG, sliceB]
    simp only [SliceT] at ht
    by_cases hv : vs = []
    · subst hv
      simp only [List.length_nil, if_true] at hs
      rw [if_pos rfl]
      refine post_widen0 hi (post_store (n := 2) h ?_)
      rw [hs, h.sp]; simp only [h.si]; rfl
    · have hne : c.type ≠ .structRecur := fun hc => hv (ht.1 hc)
      rw [if_neg (by simpa using hv)] at hs
      rw [if_neg hv]
      rw [h.sp, readCell_at h.blk] at hs
      cases hh : sliceHdr blk[off]? with
      | none => rw [hh] at hs; exact Halts.one hs (by simp)
      | some t =>
        obtain ⟨l, cp, a⟩ := t
        rw [hh] at hs
        simp only [hcs, writeSeg_at h.blk] at hs
        simp only []
        cases hbl : blit blk off (seg (3 * pr.x.W) (growSlice esz vs.length c.type.isElemComposite l cp a)) with
        | none => rw [hbl] at hs; exact Halts.one hs (by simp)
        | some b1 =>
          rw [hbl] at hs
          obtain ⟨m1, hm1⟩ := putBlock_total b1 h.blk
          simp only [Option.bind_some, hm1] at hs
          obtain ⟨l', c', a', hg⟩ := growSlice_slice esz vs.length c.type.isElemComposite l cp a
          have hcell := blit_seg_get (by omega) hbl
          rw [hg] at hcell
          have harr : getBlock b1 [⟨off, .arr⟩] = some a' := by simp [getBlock, hcell, ownedBlock]
          simp only [harr]
          have hpath : getBlock m1 (path ++ [⟨off, .arr⟩]) = some a' := by
            rw [getBlock_append, get_put hm1]; exact harr
          have hloop := simX_sliceLoop hf hty hc hcp hne hcs hw ih vs
            { s with mem := m1, ti := s.ti + 1, si := b + 1, dyn := upd s.dyn (b + 1) fun y => { y with dest := .at (Addr.into ⟨path, off⟩ .arr), offset := 0 } }
            (path ++ [⟨off, .arr⟩]) 0 a' ⟨.arrayEnd, k, k + 1, 0⟩ rest h.pc rfl
            (by simp [upd, Ptr.add, Addr.into])
            (by
              simp only []
              have := toks_drop (t := [_]) (r := flattenL (s.ti + 1) vs ++ ⟨.arrayEnd, k, k + 1, 0⟩ :: rest) (by rw [htk]; simp; rfl)
              simpa using this)
            rfl hpath
            (h.dyn.upd_elem (g := fun y => { y with dest := .at (Addr.into ⟨path, off⟩ .arr), offset := 0 }) (i := b + 1) hc hcp hf (.inr hty) rfl)
            (hi.upd_other hc hne _) ht.2
          refine PostQ.into (Reach.one hs) ?_ hm1 ?_ hloop
          · simp [flatten]; omega
          · intro j hj
            have : j ≠ b + 1 := by omega
            simp only [upd, if_neg this]
  | obj i es k => exact post_widen0 hi (sim_mismatch h hf _ (.inr ⟨i, es, k, rfl, fun t => by simp [onObject, hty]⟩))
  | null _ _ | bool _ _ _ | num _ _ _ | str _ _ =>
    simp only [sliceG]
    rw [← hty]
    exact post_widen0 hi (sim_leaf h hf rfl (by rw [hty]; simp))

/-! ## Arrays -/

/-- The loop over the elements of an array whose elements are no recursive structs. -/
theorem simX_arrLoop {pr : Prog} {b w esz n : Nat} {f c : Frame} {g : JVal → Block → Nat → Res} {T : Bool → JVal → Prop} (hf : pr.frames[b]? = some f) (hty : f.type = .array)
    (hc : pr.frames[b + 1]? = some c) (hcp : c.parent = some b) (hcap : c.cap = n) (hne : c.type ≠ .structRecur) (hcs : c.size = esz) (hw : 0 < w) (ih : SimX pr (b + 1) w g T) :
    ∀ (vs : List JVal) (s : St) (path : List Step) (off k : Nat) (blk : Block) (te : Token) (rest : List Token),
    s.pc = .loop → s.si = b + 1 → (s.dyn (b + 1)).dest.add (s.dyn (b + 1)).offset = .at ⟨path, off⟩ → (s.dyn (b + 1)).len = k → k < n →
    pr.toks.drop s.ti = flattenL s.ti vs ++ te :: rest → te.type = .arrayEnd → getBlock s.mem path = some blk → DynOK pr.frames s.dyn → Idle pr.frames s.dyn →
    (∀ v ∈ vs.take (n - k), T false v) →
    PostY pr s b b (b + (1 + w)) path ((flattenL s.ti vs).length + 1) (elemsB g esz (vs.take (n - k)) blk off) := by
  intro vs
  induction vs with
  | nil =>
    intro s path off k blk te rest hpc hsi hp hlen hk htk hte hb hd hi ht
    simp only [flattenL, List.nil_append] at htk
    simp only [flattenL, List.take_nil, elemsB, List.length_nil, Nat.zero_add]
    exact postY_of (sim_arrayEnd (w := 0) hpc hsi hc hne htk hte hb hd) hi
  | cons v vs ihv =>
    intro s path off k blk te rest hpc hsi hp hlen hk htk hte hb hd hi ht
    have htake : (v :: vs).take (n - k) = v :: vs.take (n - (k + 1)) := by
      have : n - k = (n - (k + 1)) + 1 := by omega
      rw [this, List.take_succ_cons]
    rw [htake] at ht ⊢
    simp only [flattenL, List.append_assoc] at htk
    have hpre : Pre pr s (b + 1) path off blk v (flattenL (s.ti + (flatten s.ti v).length) vs ++ te :: rest) :=
      ⟨hpc, hsi, hp, htk, hb, hd⟩
    have hchild := ih s v path off blk _ false hpre hi (by simp) (ht v (by simp))
    simp only [elemsB]
    cases hdec : g v blk off with
    | err i er b' => rw [hdec] at hchild; exact hchild
    | crash => rw [hdec] at hchild; exact hchild
    | unsup => trivial
    | ok b' =>
      rw [hdec] at hchild
      obtain ⟨s1, h1, h2, h3, h4, h5, h6, h7, h8⟩ := hchild
      have hb1 := get_put h5
      have hdyn1 : s1.dyn (b + 1) = s.dyn (b + 1) := h6 _ (by omega)
      have hst : step pr s1 = onValEnd pr s1 c := by simp [step, h2, h3, hc]
      simp only [onValEnd, hcp, hf, hty, hcap] at hst
      have htk1 : pr.toks.drop s1.ti = flattenL s1.ti vs ++ te :: rest := by
        rw [h4]; exact toks_drop htk
      have hlen1 : (s1.dyn (b + 1)).len = k := by rw [hdyn1, hlen]
      have hlenu : ((upd s1.dyn s1.si fun y => { y with len := y.len + 1 }) s1.si).len = k + 1 := by
        simp only [upd, if_pos, h3, hlen1]
      simp only [hlenu] at hst
      by_cases hge : k + 1 ≥ n
      · rw [if_pos hge] at hst
        rw [htk1, skip_flattenL vs 0 s1.ti] at hst
        simp only [skipExtra, hte, Nat.le_refl, if_true, Option.map_some, Nat.zero_add] at hst
        have hn0 : n - (k + 1) = 0 := by omega
        rw [hn0, List.take_zero]
        simp only [elemsB]
        refine PostQ.trans (h1.trans (Reach.one hst)) ?_ h5 ?_ (postY_of (sim_arrayEnd (b := b) (w := 0) (te := te) (rest := rest) rfl ?_ hc hne ?_ hte hb1 ?_) ?_)
        · simp only [h4, flattenL, List.length_append]; omega
        · intro j hj
          have hj' : j ≠ s1.si := by rw [h3]; omega
          simp only [upd, if_neg hj']
          exact h6 j (by omega)
        · simp only [h3]
        · exact toks_drop htk1
        · exact h7.upd_elem (b := b) (g := fun y => { y with len := y.len + 1 }) (i := s1.si) (by rw [h3]; exact hc) hcp hf (.inl hty) rfl
        · exact h8.upd_other (i := s1.si) (c := c) (by rw [h3]; exact hc) hne _
      · rw [if_neg hge] at hst
        refine PostQ.trans (h1.trans (Reach.one hst)) ?_ h5 ?_ (ihv _ path (off + esz) (k + 1) b' te rest rfl ?_ ?_ ?_ (by omega) htk1 hte hb1 ?_ ?_ (fun v hv => ht v (by simp [hv])))
        · simp only [h4, flattenL, List.length_append]; omega
        · intro j hj
          have hj' : j ≠ s1.si := by rw [h3]; omega
          simp only [upd, if_neg hj']
          exact h6 j (by omega)
        · simp only [h3]
        · simp only [upd, h3, if_pos, hdyn1]
          rw [hcs]
          exact add_size hp _
        · simp only [upd, h3, if_pos, hlen1]
        · have hA := h7.upd_elem (b := b) (g := fun y => { y with len := y.len + 1 }) (i := s1.si) (by rw [h3]; exact hc) hcp hf (.inl hty) rfl
          exact hA.upd_elem (b := b) (g := fun y => { y with offset := y.offset + c.size }) (i := s1.si) (by rw [h3]; exact hc) hcp hf (.inl hty) rfl
        · have hA := h8.upd_other (i := s1.si) (c := c) (by rw [h3]; exact hc) hne fun y => { y with len := y.len + 1 }
          exact hA.upd_other (i := s1.si) (c := c) (by rw [h3]; exact hc) hne _

/-- The decoder of an array. -/
def arrG (x : Ext) (src : Bytes) (g : JVal → Block → Nat → Res) (esz n : Nat) (v : JVal) (b : Block) (off : Nat) : Res :=
  match v with
  | .arr _ vs _ => elemsB g esz (vs.take n) b off
  | v => execB x none 0 false b off v.index (leaf x src .array v)

/-- The elements of an array, and what the documents satisfy. -/
def ArrT (rec_ : Prop) (T : Bool → JVal → Prop) (n : Nat) (v : JVal) : Prop :=
  match v with
  | .arr _ vs _ => (rec_ → vs = []) ∧ ∀ w ∈ vs.take n, T false w
  | _ => True

theorem simX_array {pr : Prog} {b w esz n : Nat} {f c : Frame} {g : JVal → Block → Nat → Res} {T : Bool → JVal → Prop} (hf : pr.frames[b]? = some f) (hty : f.type = .array)
    (hn : 0 < n) (hc : pr.frames[b + 1]? = some c) (hcp : c.parent = some b) (hcap : c.cap = n) (hcs : c.size = esz) (hw : 0 < w) (ih : SimX pr (b + 1) w g T) :
    SimX pr b (1 + w) (arrG pr.x pr.src g esz n) (fun _ => ArrT (c.type = .structRecur) T n) := by
  intro s v path off blk rest z h hi hz ht
  cases v with
  | arr i vs k =>
    have hs := step_arr h hf
    have htk := h.toks
    simp only [flatten] at htk
    simp only [onArray, hty] at hs
    simp only [arrG]
    simp only [ArrT] at ht
    by_cases hv : vs = []
    · subst hv
      simp only [List.length_nil, Nat.lt_one_iff, if_true] at hs
      simp only [List.take_nil, elemsB]
      exact ⟨_, Reach.one hs, rfl, h.si, by simp [flatten, flattenL], put_get h.blk, fun _ _ => rfl, h.dyn, hi⟩
    · have hne : c.type ≠ .structRecur := fun hc => hv (ht.1 hc)
      rw [if_neg (by simpa [Nat.lt_one_iff] using hv)] at hs
      have hloop := simX_arrLoop hf hty hc hcp hcap hne hcs hw ih vs
        { s with ti := s.ti + 1, si := s.si + 1, dyn := upd s.dyn (s.si + 1) fun y => { y with dest := s.p, len := 0, offset := 0 } }
        path off 0 blk ⟨.arrayEnd, k, k + 1, 0⟩ rest h.pc (by simp [h.si])
        (by simp [upd, h.si, h.sp, Ptr.add]) (by simp [upd, h.si]) hn
        (by
          simp only []
          have := toks_drop (t := [_]) (r := flattenL (s.ti + 1) vs ++ ⟨.arrayEnd, k, k + 1, 0⟩ :: rest) (by rw [htk]; simp; rfl)
          simpa using this)
        rfl h.blk
        (h.dyn.upd_elem (g := fun y => { y with dest := s.p, len := 0, offset := 0 }) (i := s.si + 1) (by rw [h.si]; exact hc) hcp hf (.inl hty) rfl)
        (hi.upd_other (i := s.si + 1) (c := c) (by rw [h.si]; exact hc) hne _) (by simpa using ht.2)
      refine PostQ.trans (Reach.one hs) ?_ (put_get h.blk) ?_ hloop
      · simp [flatten]; omega
      · intro j hj
        have : j ≠ s.si + 1 := by rw [h.si]; omega
        simp only [upd, if_neg this]
  | obj i es k => exact post_widen0 hi (sim_mismatch h hf _ (.inr ⟨i, es, k, rfl, fun t => by simp [onObject, hty]⟩))
  | null _ _ | bool _ _ _ | num _ _ _ | str _ _ =>
    simp only [arrG]
    rw [← hty]
    exact post_widen0 hi (sim_leaf h hf rfl (by rw [hty]; simp))

/-! ## Maps -/

/-- The value frame of a map is at offset 0. -/
theorem off_value {pr : Prog} {b i : Nat} {f c : Frame} {d : Nat → Dyn} (hf : pr.frames[b]? = some f) (hty : f.type = .struct ∨ f.type = .map) (hc : pr.frames[i]? = some c)
    (hcp : c.parent = some b) (hd : DynOK pr.frames d) (hi : Idle pr.frames d) : (d i).offset = c.offset := by
  by_cases hr : c.type = .structRecur
  · exact (hi i c hc hr).2.1 b f hcp hf hty
  · exact hd.off i c b f hc hr hcp hf (by rcases hty with h | h <;> simp [h])

/-- The loop over the members of an object decoded into a map. -/
theorem simX_mapLoop {pr : Prog} {b w vsz : Nat} {k : KeyTy} {f fk c : Frame} {g : JVal → Block → Nat → Res} {T : Bool → JVal → Prop} (hf : pr.frames[b]? = some f) (hty : f.type = .map)
    (hvs : f.mapValueSize = vsz) (hfast : f.faststr = true → f.mapValueSize ≤ 128) (hfk : pr.frames[b + 1]? = some fk) (hkr : k.Rep fk)
    (hc : pr.frames[b + 2]? = some c) (hcp : c.parent = some b) (hco : c.offset = 0) (hcs : c.size = vsz) (hw : 0 < w) (ih : SimX pr (b + 2) w g T) (hk : k ≠ .other) :
    ∀ (ms : List ((Nat × Nat) × JVal)) (s : St) (path : List Step) (off : Nat) (blk : Block) (te : Token) (rest : List Token),
    s.pc = .loop → s.si = b → (s.dyn b).dest.add (s.dyn b).offset = .at ⟨path, off⟩ →
    pr.toks.drop s.ti = flattenM s.ti ms ++ te :: rest → te.type = .objectEnd → getBlock s.mem path = some blk → DynOK pr.frames s.dyn → Idle pr.frames s.dyn →
    (∀ m ∈ ms, T true m.2) →
    PostY pr s b b (b + (2 + w)) path ((flattenM s.ti ms).length + 1)
      (mapB pr.x pr.src g k vsz (c.type == .struct || c.type == .structRecur) ms blk off) := by
  intro ms
  have hW := W_pos pr.x
  induction ms with
  | nil =>
    intro s path off blk te rest hpc hsi hp htk hte hb hd hi ht
    simp only [flattenM, List.nil_append] at htk
    simp only [flattenM, mapB, List.length_nil, Nat.zero_add]
    exact postY_of (sim_mapEnd hpc hsi hf hty htk hte hb hd) hi
  | cons m ms ihm =>
    obtain ⟨⟨i, en⟩, v⟩ := m
    intro s path off blk te rest hpc hsi hp htk hte hb hd hi ht
    simp only [flattenM, List.append_assoc, List.cons_append] at htk
    have hs := step_loop hpc (toks_head htk) (by rw [hsi]; exact hf)
    have hsp : s.p = .at ⟨path, off⟩ := by simp only [St.p, hsi]; exact hp
    simp only [dispatch, onKey, hty, hsi, hfk, hsp] at hs
    simp only [mapB]
    cases hkey : Model.slice pr.src (i + 1) (en - 1) with
    | none => rw [hkey] at hs; exact Halts.one hs (by simp)
    | some key =>
      rw [hkey] at hs
      simp only [mapKeyOf_rep hkr hk] at hs ⊢
      cases hkk : k.key pr.x key with
      | none => rw [hkk] at hs; exact Halts.one hs (by simp)
      | some r =>
        rw [hkk] at hs
        cases r with
        | error er =>
          simp only [Option.map_some, Except.map] at hs
          exact ⟨s, Halts.one hs (by simp), put_get hb, hd⟩
        | ok k' =>
          simp only [Option.map_some, Except.map, mapAssign_eq hfast, assignEntry_at hb, hvs] at hs
          simp only []
          cases has : assignEntry pr.x.W vsz blk ⟨[], off⟩ k' with
          | none => rw [has] at hs; exact Halts.one hs (by simp)
          | some b1 =>
            obtain ⟨eb, heb⟩ := assignEntry_get hW has
            rw [has] at hs
            obtain ⟨m1, hm1⟩ := putBlock_total b1 hb
            simp only [Option.bind_some, hm1, Option.map_some] at hs
            have hne : ¬ (EType.map = EType.mapRecur) := by simp
            rw [if_neg hne, hc] at hs
            simp only [] at hs
            simp only [heb]
            have hpath : getBlock m1 (path ++ [⟨off, .entry k'⟩]) = some eb := by
              rw [getBlock_append, get_put hm1]; exact heb
            have hoff0 : (s.dyn (b + 2)).offset = 0 := by rw [off_value hf (.inr hty) hc hcp hd hi, hco]
            have main : ∀ (eb' : Block) (m2 : Block), putBlock m1 (path ++ [⟨off, .entry k'⟩]) eb' = some m2 →
                step pr s = .run { s with mem := m2, dyn := upd s.dyn (b + 2) fun y => { y with dest := .at (Addr.into ⟨path, off⟩ (.entry k')) },
                                          si := b + 2, ti := s.ti + 1 } →
                PostY pr s b b (b + (2 + w)) path ((flattenM s.ti (((i, en), v) :: ms)).length + 1)
                  (match (g v eb' 0).bindB (putIn b1 off (.entry k')) with
                    | .ok b => mapB pr.x pr.src g k vsz (c.type == .struct || c.type == .structRecur) ms b off
                    | r => r) := by
              intro eb' m2 hm2 hst
              have hpre : Pre pr { s with mem := m2, dyn := upd s.dyn (b + 2) fun y => { y with dest := .at (Addr.into ⟨path, off⟩ (.entry k')) },
                                          si := b + 2, ti := s.ti + 1 } (b + 2) (path ++ [⟨off, .entry k'⟩]) 0 eb' v
                  (flattenM (s.ti + 1 + (flatten (s.ti + 1) v).length) ms ++ te :: rest) := by
                refine ⟨hpc, rfl, ?_, ?_, get_put hm2, hd.upd_dest (b + 2) (g := fun y => { y with dest := .at (Addr.into ⟨path, off⟩ (.entry k')) }) rfl rfl⟩
                · simp [upd, Ptr.add, Addr.into, hoff0]
                · have := toks_drop (t := [_]) (r := flatten (s.ti + 1) v ++ (flattenM (s.ti + 1 + (flatten (s.ti + 1) v).length) ms ++ te :: rest))
                    (by rw [htk]; simp; rfl)
                  simpa using this
              have hchild := ih _ v _ 0 eb' _ true hpre (hi.upd_dest (b + 2) (g := fun y => { y with dest := .at (Addr.into ⟨path, off⟩ (.entry k')) }) rfl rfl)
                (fun _ => by simp only [upd, if_pos]; exact hoff0) (ht ((i, en), v) (by simp))
              obtain ⟨b2, hb2⟩ : ∃ b2, putBlock b1 [⟨off, .entry k'⟩] eb' = some b2 := putBlock_total eb' heb
              have hm2' : putBlock s.mem path b2 = some m2 := by
                rw [putBlock_append (get_put hm1), hb2] at hm2
                rw [← hm2]
                exact (put_put hm1).symm
              have hput : putIn b2 off (.entry k') = putIn b1 off (.entry k') := funext fun n => put_put hb2
              have hin := PostQ.into (n := 1 + (flatten (s.ti + 1) v).length) (b1 := b2) (off := off) (sel := .entry k') (Reach.one hst)
                (by simp only []; omega) hm2'
                (fun j hj => by
                  have : j ≠ b + 2 := by omega
                  simp only [upd, if_neg this])
                (PostY.widen (lo' := b) (hi' := b + (2 + w)) (by omega) (by omega) hchild)
              rw [hput] at hin
              cases hres : (g v eb' 0).bindB (putIn b1 off (.entry k')) with
              | err i' er b' => rw [hres] at hin; exact hin
              | crash => rw [hres] at hin; exact hin
              | unsup => trivial
              | ok b3 =>
                rw [hres] at hin
                obtain ⟨s3, h1, h2, h3, h4, h5, h6, h7, h8⟩ := hin
                have hst3 : step pr s3 = onValEnd pr s3 c := by simp [step, h2, h3, hc]
                simp only [onValEnd, hcp, hf, hty] at hst3
                have htk3 : pr.toks.drop s3.ti = flattenM s3.ti ms ++ te :: rest := by
                  rw [h4]
                  have e1 : s.ti + (1 + (flatten (s.ti + 1) v).length) = s.ti + 1 + (flatten (s.ti + 1) v).length := by omega
                  rw [e1]
                  exact toks_drop hpre.toks
                have hdyn3 : s3.dyn b = s.dyn b := h6 _ (by omega)
                refine PostQ.trans (h1.trans (Reach.one hst3)) ?_ h5 h6 (ihm _ path off b3 te rest rfl rfl ?_ htk3 hte (get_put h5) h7 h8 (fun m hm => ht m (by simp [hm])))
                · have hl : (flattenM s3.ti ms).length = (flattenM (s.ti + 1 + (flatten (s.ti + 1) v).length) ms).length := flattenM_len _ _ _
                  simp only [flattenM, List.length_cons, List.length_append, hl]; omega
                · simp only [hdyn3]; exact hp
            by_cases hst : c.type = .struct ∨ c.type = .structRecur
            · rw [if_pos hst] at hs
              have hbe : (c.type == EType.struct || c.type == EType.structRecur) = true := by simpa using hst
              simp only [Addr.into, writeSeg_at hpath] at hs
              simp only [hbe, if_true]
              cases hbz : blit eb 0 (zeros vsz) with
              | none => rw [hbz] at hs; exact Halts.one hs (by simp)
              | some eb' =>
                rw [hbz] at hs
                obtain ⟨m2, hm2⟩ := putBlock_total eb' hpath
                simp only [Option.bind_some, hm2] at hs
                have := main eb' m2 hm2 hs
                rw [hbe] at this
                exact this
            · rw [if_neg hst] at hs
              have hbe : (c.type == EType.struct || c.type == EType.structRecur) = false := by simpa using hst
              simp only [hbe]
              have := main eb m1 (put_get hpath) hs
              rw [hbe] at this
              exact this

/-- The decoder of a map. -/
def mapG (x : Ext) (src : Bytes) (g : JVal → Block → Nat → Res) (k : KeyTy) (vsz : Nat) (cleared : Bool) (v : JVal) (b : Block) (off : Nat) : Res :=
  match v with
  | .obj _ ms _ => match ensureMap x.W b (.at ⟨[], off⟩) with
    | none => .crash
    | some b => if k = .other ∧ ms ≠ [] then .unsup else mapB x src g k vsz cleared ms b off
  | v => execB x none 0 false b off v.index (leaf x src .map v)

/-- The entries of a map. -/
def MapT (T : Bool → JVal → Prop) (v : JVal) : Prop :=
  match v with
  | .obj _ ms _ => ∀ m ∈ ms, T true m.2
  | _ => True

theorem simX_map {pr : Prog} {b w vsz : Nat} {k : KeyTy} {f fk c : Frame} {g : JVal → Block → Nat → Res} {T : Bool → JVal → Prop} (hf : pr.frames[b]? = some f) (hty : f.type = .map)
    (hvs : f.mapValueSize = vsz) (hfast : f.faststr = true → f.mapValueSize ≤ 128) (hfk : pr.frames[b + 1]? = some fk) (hkr : k.Rep fk)
    (hc : pr.frames[b + 2]? = some c) (hcp : c.parent = some b) (hco : c.offset = 0) (hcs : c.size = vsz) (hw : 0 < w) (ih : SimX pr (b + 2) w g T) :
    SimX pr b (2 + w) (mapG pr.x pr.src g k vsz (c.type == .struct || c.type == .structRecur)) (fun _ => MapT T) := by
  intro s v path off blk rest z h hi hz ht
  cases v with
  | obj i ms k1 =>
    have hs := step_obj h hf
    have htk := h.toks
    simp only [flatten] at htk
    simp only [onObject, hty, h.sp, ensureMap_at h.blk] at hs
    simp only [mapG]
    simp only [MapT] at ht
    cases hen : ensureMap pr.x.W blk (.at ⟨[], off⟩) with
    | none => rw [hen] at hs; exact Halts.one hs (by simp)
    | some b1 =>
      rw [hen] at hs
      obtain ⟨m1, hm1⟩ := putBlock_total b1 h.blk
      simp only [Option.bind_some, hm1] at hs
      simp only []
      by_cases hm : ms = []
      · subst hm
        simp only [List.length_nil, if_true] at hs
        simp only [ne_eq, not_true_eq_false, and_false, if_false, mapB]
        exact ⟨_, Reach.one hs, rfl, h.si, rfl, hm1, fun _ _ => rfl, h.dyn, hi⟩
      · rw [if_neg (by simpa using hm)] at hs
        by_cases hk : k = .other
        · rw [if_pos ⟨hk, hm⟩]; trivial
        · rw [if_neg (fun hc => hk hc.1)]
          have hloop := simX_mapLoop hf hty hvs hfast hfk hkr hc hcp hco hcs hw ih hk ms { s with mem := m1, ti := s.ti + 1 } path off b1 ⟨.objectEnd, k1, k1 + 1, 0⟩ rest h.pc h.si h.p
            (by
              simp only []
              have := toks_drop (t := [_]) (r := flattenM (s.ti + 1) ms ++ ⟨.objectEnd, k1, k1 + 1, 0⟩ :: rest) (by rw [htk]; simp; rfl)
              simpa using this)
            rfl (get_put hm1) h.dyn hi ht
          refine PostQ.trans (Reach.one hs) ?_ hm1 (fun _ _ => rfl) hloop
          simp [flatten]; omega
  | arr i es k => exact post_widen0 hi (sim_mismatch h hf _ (.inl ⟨i, es, k, rfl, fun t => by simp [onArray, hty]⟩))
  | null _ _ | bool _ _ _ | num _ _ _ | str _ _ =>
    simp only [mapG]
    rw [← hty]
    exact post_widen0 hi (sim_leaf h hf rfl (by rw [hty]; simp))

end Verif.Proof.Sim

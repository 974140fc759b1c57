import Verif.Big.Full
import Verif.Spec.Right
import Verif.Proof.Root
import Verif.Proof.Safe
/-!
# The token loop follows the reading with pointers at the right end of arrays and of the document
-/
namespace Verif.Proof.Sim
open Verif.Model Verif.Big Verif.Spec Verif.Proof.Mem Verif.Proof.Any

/-! ## Lists with a special last member -/

theorem ButLast.at {α : Type} {F : Place → α → Prop} {p : Place} {a : α} {l : List α} (h : ButLast (F .inside) (F p) (a :: l)) : F (if l = [] then p else .inside) a := by
  cases l with
  | nil => exact h
  | cons b l => exact h.1

theorem ButLast.tail {α : Type} {P Q : α → Prop} {a : α} {l : List α} (h : ButLast P Q (a :: l)) : ButLast P Q l := by
  cases l with
  | nil => trivial
  | cons b l => exact h.2

theorem ButLast.suffix {α : Type} {P Q : α → Prop} : ∀ {pre l : List α}, ButLast P Q (pre ++ l) → ButLast P Q l
  | [], _, h => h
  | _ :: pre, _, h => ButLast.suffix (pre := pre) (ButLast.tail h)

theorem ButLast.imp {α : Type} {P Q P' Q' : α → Prop} : ∀ {l : List α}, ButLast P Q l → (∀ a ∈ l, P a → P' a) → (∀ a ∈ l, Q a → Q' a) → ButLast P' Q' l
  | [], _, _, _ => trivial
  | [_], h, _, h2 => h2 _ List.mem_cons_self h
  | _ :: _ :: _, h, h1, h2 => ⟨h1 _ List.mem_cons_self h.1, ButLast.imp h.2 (fun a ha => h1 a (List.mem_cons_of_mem _ ha)) (fun a ha => h2 a (List.mem_cons_of_mem _ ha))⟩

theorem ButLast.mem {α : Type} {P Q R : α → Prop} (h1 : ∀ a, P a → R a) (h2 : ∀ a, Q a → R a) : ∀ {l : List α}, ButLast P Q l → ∀ a ∈ l, R a
  | [], _, _, h => nomatch h
  | [_], h, a, ha => by rw [List.mem_singleton.1 ha]; exact h2 _ h
  | _ :: _ :: _, h, a, ha => by
    rcases List.mem_cons.1 ha with rfl | ha
    · exact h1 _ h.1
    · exact ButLast.mem h1 h2 h.2 a ha

theorem wfL_mem {src : Bytes} : ∀ {vs : List JVal}, WfL src vs → ∀ w ∈ vs, Wf src w
  | _ :: _, h, w, hw => by
    rcases List.mem_cons.1 hw with rfl | hw
    · exact h.1
    · exact wfL_mem h.2 w hw

/-! ## The right end of the document -/

/-- The frame and those around it belong to structs, maps and pointers. -/
inductive Chain (fr : List Frame) : Nat → Prop
  | root {b : Nat} {f : Frame} : fr[b]? = some f → f.type ≠ .mapRecur → f.type ≠ .structRecur → f.parent = none → Chain fr b
  | link {b q : Nat} {f g : Frame} : fr[b]? = some f → f.type ≠ .mapRecur → f.type ≠ .structRecur → f.parent = some q → fr[q]? = some g →
      (g.type = .struct ∨ g.type = .map ∨ (g.type = .ptr ∧ b = q + 1)) → Chain fr q → Chain fr b

theorem Chain.frame {fr : List Frame} {b : Nat} (h : Chain fr b) : ∃ f, fr[b]? = some f ∧ f.type ≠ .mapRecur ∧ f.type ≠ .structRecur := by
  cases h with
  | root h1 h2 h3 _ => exact ⟨_, h1, h2, h3⟩
  | link h1 h2 h3 _ _ _ _ => exact ⟨_, h1, h2, h3⟩

/-- The end of a value leads to a frame of the chain. -/
theorem chain_step {pr : Prog} {s : St} (hc : Chain pr.frames s.si) (hpc : s.pc = .valEnd) : ∃ q, Chain pr.frames q ∧ step pr s = .run { s with pc := .loop, si := q } := by
  cases hc with
  | root h1 h2 h3 h4 =>
    refine ⟨s.si, .root h1 h2 h3 h4, ?_⟩
    simp [step, hpc, h1, onValEnd, h4]
  | link h1 h2 h3 h4 h5 h6 h7 =>
    rename_i q f g
    refine ⟨q, h7, ?_⟩
    rcases h6 with h | h | ⟨h, hq⟩
    · simp [step, hpc, h1, onValEnd, h4, h5, h]
    · simp [step, hpc, h1, onValEnd, h4, h5, h]
    · have hst : step pr s = onValEnd pr s f := by simp [step, hpc, h1]
      rw [hst]
      simp only [onValEnd, h4, h5, h, decSi, hq]
      simp

/-- A closing brace at a frame that is no recursive type. -/
theorem close_step {pr : Prog} {s : St} {f : Frame} {t : Token} {rest : List Token} (hf : pr.frames[s.si]? = some f) (h1 : f.type ≠ .mapRecur) (h2 : f.type ≠ .structRecur)
    (hpc : s.pc = .loop) (ht : pr.toks.drop s.ti = t :: rest) (hty : t.type = .objectEnd) (hd : DynOK pr.frames s.dyn) :
    Reach pr s { s with ti := s.ti + 1, pc := .valEnd } := by
  have hs := step_loop hpc (toks_head ht) hf
  simp only [dispatch, hty, onObjectEnd] at hs
  by_cases h : f.type = .struct
  · simp only [h] at hs
    exact Reach.one hs
  · have hs' : step pr s = .run { s with ti := s.ti + 1, pc := .recurObjEnd } := by
      rw [hs]
      cases hft : f.type <;> simp_all
    have hs2 : step pr { s with ti := s.ti + 1, pc := .recurObjEnd } = .run { s with ti := s.ti + 1, pc := .valEnd } := by
      simp [step, hf, onRecurObjEnd, hd.rs s.si (fun f' hf' => by rw [hf] at hf'; cases hf'; exact h2)]
    exact Reach.head hs' (Reach.one hs2)

/-- Closing braces up to the end of the document. -/
theorem drain {pr : Prog} : ∀ (ts : List Token) (s : St), Chain pr.frames s.si → s.pc = .valEnd → pr.toks.drop s.ti = ts → (∀ t ∈ ts, t.type = .objectEnd) → DynOK pr.frames s.dyn →
    ∃ s', Reach pr s s' ∧ s'.pc = .loop ∧ pr.toks.drop s'.ti = [] ∧ s'.mem = s.mem ∧ s'.dyn = s.dyn
  | [], s, hc, hpc, ht, _, _ => by
    obtain ⟨q, -, hs⟩ := chain_step hc hpc
    exact ⟨_, Reach.one hs, rfl, ht, rfl, rfl⟩
  | t :: ts, s, hc, hpc, ht, hts, hd => by
    obtain ⟨q, hq, hs⟩ := chain_step hc hpc
    obtain ⟨f, hf, h1, h2⟩ := hq.frame
    have hcl := close_step (s := { s with pc := .loop, si := q }) hf h1 h2 rfl ht (hts t List.mem_cons_self) hd
    have ht' : pr.toks.drop (s.ti + 1) = ts := by
      have := toks_drop (t := [t]) (r := ts) (by rw [ht]; rfl)
      simpa using this
    obtain ⟨s', k1, k2, k3, k4, k5⟩ := drain ts { s with si := q, ti := s.ti + 1, pc := .valEnd } hq rfl ht' (fun t h => hts t (List.mem_cons_of_mem _ h)) hd
    exact ⟨s', (Reach.one hs).trans (hcl.trans k1), k2, k3, k4, k5⟩

/-! ## Outcomes -/

/-- How decoding a value ends, according to its place; `T` is the token behind the value. Somewhere inside: at the end of the value. At the right end of an array, the end of the value may be missing. At the right end of the document:
at the end of the document. -/
def Ends (pr : Prog) (s : St) (p : Place) (si lo hi T : Nat) (s' : St) : Prop :=
  (∀ j, ¬ (lo < j ∧ j < hi) → s'.dyn j = s.dyn j) ∧
  match p with
  | .inside => s'.pc = .valEnd ∧ s'.si = si ∧ s'.ti = T
  | .last => (s'.pc = .valEnd ∨ s'.pc = .loop) ∧ s'.si = si ∧ s'.ti = T
  | .final => s'.pc = .loop ∧ pr.toks.drop s'.ti = []

/-- What the machine does from a state when the outcome of the reading is given. -/
def PostP (pr : Prog) (s : St) (p : Place) (si lo hi T : Nat) (path : List Step) : Res → Prop
  | .ok blk' => ∃ s', Reach pr s s' ∧ Ends pr s p si lo hi T s' ∧ putBlock s.mem path blk' = some s'.mem ∧ DynOK pr.frames s'.dyn
  | .err i e blk' => ∃ s', Halts pr s (.err i e s') ∧ putBlock s.mem path blk' = some s'.mem ∧ DynOK pr.frames s'.dyn
  | .crash => Halts pr s .crash
  | .unsup => True

/-- At the right end of the document, only closing braces follow. -/
def Fin (pr : Prog) (p : Place) (b T : Nat) : Prop := p = .final → Chain pr.frames b ∧ ∀ t ∈ pr.toks.drop T, t.type = .objectEnd

theorem Ends.shift {pr : Prog} {s s1 s' : St} {p : Place} {si lo hi T : Nat} (hd : ∀ j, ¬ (lo < j ∧ j < hi) → s1.dyn j = s.dyn j) (h : Ends pr s1 p si lo hi T s') : Ends pr s p si lo hi T s' :=
  ⟨fun j hj => (h.1 j hj).trans (hd j hj), h.2⟩

theorem PostP.trans {pr : Prog} {s s1 : St} {p : Place} {si lo hi T : Nat} {path : List Step} {r : Res} {b1 : Block}
    (h : Reach pr s s1) (hm : putBlock s.mem path b1 = some s1.mem)
    (hd : ∀ j, ¬ (lo < j ∧ j < hi) → s1.dyn j = s.dyn j) (hr : PostP pr s1 p si lo hi T path r) : PostP pr s p si lo hi T path r := by
  cases r with
  | ok blk' =>
    obtain ⟨s', h1, h2, h3, h4⟩ := hr
    exact ⟨s', h.trans h1, h2.shift hd, by rw [← h3, put_put hm], h4⟩
  | err i e blk' =>
    obtain ⟨s', h1, h2, h3⟩ := hr
    exact ⟨s', h.halts h1, by rw [← h2, put_put hm], h3⟩
  | crash => exact h.halts hr
  | unsup => trivial

theorem PostP.widen {pr : Prog} {s : St} {p : Place} {si lo hi lo' hi' T : Nat} {path : List Step} {r : Res} (h1 : lo' ≤ lo) (h2 : hi ≤ hi') (h : PostP pr s p si lo hi T path r) :
    PostP pr s p si lo' hi' T path r := by
  cases r with
  | ok blk' =>
    obtain ⟨s', k1, k2, k3, k4⟩ := h
    exact ⟨s', k1, ⟨fun j hj => k2.1 j (by omega), k2.2⟩, k3, k4⟩
  | err i e blk' => exact h
  | crash => exact h
  | unsup => trivial

theorem PostP.into {pr : Prog} {s s1 : St} {p : Place} {si lo hi T : Nat} {path : List Step} {r : Res} {b1 : Block} {off : Nat} {sel : Sel}
    (h : Reach pr s s1) (hm : putBlock s.mem path b1 = some s1.mem)
    (hd : ∀ j, ¬ (lo < j ∧ j < hi) → s1.dyn j = s.dyn j)
    (hr : PostP pr s1 p si lo hi T (path ++ [⟨off, sel⟩]) r) : PostP pr s p si lo hi T path (r.bindB (putIn b1 off sel)) := by
  have hb1 := get_put hm
  have key : ∀ a m', putBlock s1.mem (path ++ [⟨off, sel⟩]) a = some m' → ∃ b', putIn b1 off sel a = some b' ∧ putBlock s.mem path b' = some m' := by
    intro a m' ha
    rw [putBlock_append hb1] at ha
    cases hp : putBlock b1 [⟨off, sel⟩] a with
    | none => rw [hp] at ha; cases ha
    | some b' =>
      rw [hp] at ha
      exact ⟨b', hp, by rw [← put_put hm]; exact ha⟩
  cases r with
  | ok blk' =>
    obtain ⟨s', h1, h2, h3, h4⟩ := hr
    obtain ⟨b', hb', hm'⟩ := key _ _ h3
    simp only [Res.bindB, hb']
    exact ⟨s', h.trans h1, h2.shift hd, hm', h4⟩
  | err i e blk' =>
    obtain ⟨s', h1, h2, h3⟩ := hr
    obtain ⟨b', hb', hm'⟩ := key _ _ h2
    simp only [Res.bindB, hb']
    exact ⟨s', h.halts h1, hm', h3⟩
  | crash => exact h.halts hr
  | unsup => trivial

/-- A value that ends in the normal way. -/
theorem PostG.toP {pr : Prog} {s : St} {p : Place} {si lo hi n T : Nat} {path : List Step} {r : Res} (h : PostG pr s si lo hi path n r) (hT : s.ti + n = T) (hfin : Fin pr p si T) :
    PostP pr s p si lo hi T path r := by
  subst hT
  cases r with
  | ok blk' =>
    obtain ⟨s', h1, h2, h3, h4, h5, h6, h7⟩ := h
    cases p with
    | inside => exact ⟨s', h1, ⟨h6, h2, h3, h4⟩, h5, h7⟩
    | last => exact ⟨s', h1, ⟨h6, .inl h2, h3, h4⟩, h5, h7⟩
    | final =>
      obtain ⟨hc, hts⟩ := hfin rfl
      obtain ⟨s2, k1, k2, k3, k4, k5⟩ := drain _ s' (by rw [h3]; exact hc) h2 rfl (by rw [h4]; exact hts) h7
      exact ⟨s2, h1.trans k1, ⟨fun j hj => by rw [k5]; exact h6 j hj, k2, k3⟩, by rw [k4]; exact h5, by rw [k5]; exact h7⟩
  | err i e blk' => exact h
  | crash => exact h
  | unsup => trivial

theorem Post.toP {pr : Prog} {s : St} {p : Place} {b w n T : Nat} {path : List Step} {r : Res} (h : Post pr s b w path n r) (hT : s.ti + n = T) (hfin : Fin pr p b T) :
    PostP pr s p b b (b + w) T path r := (post_iff.1 h).toP hT hfin

/-- The other way round, somewhere inside. -/
theorem PostP.inside {pr : Prog} {s : St} {si lo hi n : Nat} {path : List Step} {r : Res} (h : PostP pr s .inside si lo hi (s.ti + n) path r) : PostG pr s si lo hi path n r := by
  cases r with
  | ok blk' =>
    obtain ⟨s', h1, ⟨h2, h3, h4, h5⟩, h6, h7⟩ := h
    exact ⟨s', h1, h3, h4, h5, h6, h2, h7⟩
  | err i e blk' => exact h
  | crash => exact h
  | unsup => trivial

/-- The simulation statement for a type at a frame. -/
def SimP (pr : Prog) (ty : Ty) (b : Nat) : Prop :=
  ∀ p s v path off blk rest, Pre pr s b path off blk v rest → Wf pr.src v → Right pr.x pr.src pr.options ty p v → Fin pr p b (s.ti + (flatten s.ti v).length) →
    PostP pr s p b b (b + ty.width) (s.ti + (flatten s.ti v).length) path (decP pr.x pr.src pr.options ty v blk off)

theorem simP_flat {pr : Prog} {ty : Ty} {b : Nat} (hr : Rep pr.x pr.frames ty b) (hd : decP pr.x pr.src pr.options ty = dec pr.x pr.src pr.options ty) : SimP pr ty b := by
  intro p s v path off blk rest h _ _ hfin
  rw [hd]
  exact (sim hr s v path off blk rest h).toP rfl hfin

/-! ## Arrays and slices -/

/-- The end of the last element: the closing bracket follows. -/
theorem sim_lastElem {pr : Prog} {s : St} {b w hi : Nat} {path : List Step} {c : Frame} {te : Token} {rest : List Token} {r : Res} {n : Nat}
    (hc : pr.frames[b + 1]? = some c) (hne : c.type ≠ .structRecur) (hhi : b + 1 + w ≤ hi)
    (hval : ∀ s1, s1.pc = .valEnd → s1.si = b + 1 → s1.ti = s.ti + n → s1.dyn (b + 1) = s.dyn (b + 1) → DynOK pr.frames s1.dyn →
      ∃ s2, Reach pr s1 s2 ∧ s2.pc = .loop ∧ s2.si = b + 1 ∧ s2.ti = s1.ti ∧ s2.mem = s1.mem ∧ (∀ j, j ≠ b + 1 → s2.dyn j = s1.dyn j) ∧ DynOK pr.frames s2.dyn)
    (htk : pr.toks.drop (s.ti + n) = te :: rest) (hte : te.type = .arrayEnd)
    (hw : 0 < w)
    (h : PostP pr s .last (b + 1) (b + 1) (b + 1 + w) (s.ti + n) path r) : PostG pr s b b hi path (n + 1) r := by
  cases r with
  | ok blk' =>
    obtain ⟨s1, k1, ⟨k2, k3, k4, k5⟩, k6, k7⟩ := h
    have hend : ∀ s2 : St, Reach pr s1 s2 → s2.pc = .loop → s2.si = b + 1 → s2.ti = s1.ti → s2.mem = s1.mem → (∀ j, j ≠ b + 1 → s2.dyn j = s1.dyn j) → DynOK pr.frames s2.dyn →
        PostG pr s b b hi path (n + 1) (.ok blk') := by
      intro s2 g1 g2 g3 g4 g5 g6 g7
      refine PostG.trans (k1.trans g1) (by rw [g4, k5]; omega) (by rw [g5]; exact k6) (fun j hj => ?_)
        (sim_arrayEnd (b := b) (w := hi - b) (blk := blk') g2 g3 hc hne (by rw [g4, k5]; exact htk) hte (by rw [g5]; exact get_put k6) g7 |>.widen (Nat.le_refl _) (by omega))
      rw [g6 j (by omega)]
      exact k2 j (by omega)
    rcases k3 with k3 | k3
    · obtain ⟨s2, g1, g2, g3, g4, g5, g6, g7⟩ := hval s1 k3 k4 k5 (k2 _ (by omega)) k7
      exact hend s2 g1 g2 g3 g4 g5 g6 g7
    · exact hend s1 (Reach.refl _ _) k3 k4 rfl rfl (fun _ _ => rfl) k7
  | err i e blk' => exact h
  | crash => exact h
  | unsup => trivial

/-- The loop over the elements of a slice. -/
theorem simP_sliceLoop {pr : Prog} {b : Nat} {e : Ty} (hr : Rep pr.x pr.frames (.slice e) b) (ih : SimP pr e (b + 1)) :
    ∀ (vs : List JVal) (s : St) (path : List Step) (off : Nat) (blk : Block) (te : Token) (rest : List Token),
    s.pc = .loop → s.si = b + 1 → (s.dyn (b + 1)).dest.add (s.dyn (b + 1)).offset = .at ⟨path, off⟩ →
    pr.toks.drop s.ti = flattenL s.ti vs ++ te :: rest → te.type = .arrayEnd → getBlock s.mem path = some blk → DynOK pr.frames s.dyn →
    WfL pr.src vs → ButLast (Right pr.x pr.src pr.options e .inside) (Right pr.x pr.src pr.options e .last) vs →
    PostG pr s b b (b + (1 + e.width)) path ((flattenL s.ti vs).length + 1)
      (elemsB (decP pr.x pr.src pr.options e) (e.size pr.x) vs blk off) := by
  intro vs
  obtain ⟨⟨f, hf, hty, hsz⟩, ⟨c, hc, hcp, -⟩, hre⟩ := hr
  obtain ⟨c', hc', hct, hcs⟩ := hre.frame
  rw [hc] at hc'; cases hc'
  have hne : c.type ≠ .structRecur := hct ▸ etype_ne e
  have hw := width_pos e
  have hval : ∀ s1 : St, s1.pc = .valEnd → s1.si = b + 1 → DynOK pr.frames s1.dyn →
      Reach pr s1 { s1 with pc := .loop, dyn := upd s1.dyn (b + 1) fun y => { y with offset := y.offset + c.size } } ∧
      DynOK pr.frames (upd s1.dyn (b + 1) fun y => { y with offset := y.offset + c.size }) := by
    intro s1 h2 h3 h7
    have hst : step pr s1 = onValEnd pr s1 c := by simp [step, h2, h3, hc]
    simp only [onValEnd, hcp, hf, hty, h3] at hst
    refine ⟨Reach.one ?_, h7.upd_elem (b := b) (g := fun y => { y with offset := y.offset + c.size }) (i := b + 1) hc hcp hf (.inr hty) rfl⟩
    rw [hst, ← h3]
  induction vs with
  | nil =>
    intro s path off blk te rest hpc hsi hp htk hte hb hd _ _
    simp only [flattenL, List.nil_append] at htk
    simp only [flattenL, elemsB, List.length_nil, Nat.zero_add]
    exact sim_arrayEnd hpc hsi hc hne htk hte hb hd
  | cons v vs ihv =>
    intro s path off blk te rest hpc hsi hp htk hte hb hd hwf hR
    simp only [flattenL, List.append_assoc] at htk
    have hpre : Pre pr s (b + 1) path off blk v (flattenL (s.ti + (flatten s.ti v).length) vs ++ te :: rest) :=
      ⟨hpc, hsi, hp, htk, hb, hd⟩
    have hRv := ButLast.at (F := Right pr.x pr.src pr.options e) hR
    by_cases hvs : vs = []
    · subst hvs
      rw [if_pos rfl] at hRv
      have hchild := ih .last s v path off blk _ hpre hwf.1 hRv (fun h => by cases h)
      have hres : elemsB (decP pr.x pr.src pr.options e) (e.size pr.x) [v] blk off = decP pr.x pr.src pr.options e v blk off := by
        simp only [elemsB]; cases decP pr.x pr.src pr.options e v blk off <;> rfl
      rw [hres]
      simp only [flattenL, List.append_nil]
      exact sim_lastElem hc hne (by omega)
        (fun s1 g1 g2 g3 g4 g5 => ⟨_, (hval s1 g1 g2 g5).1, rfl, g2, rfl, rfl, fun j hj => by simp only [upd, if_neg hj], (hval s1 g1 g2 g5).2⟩)
        (by simpa [flattenL] using toks_drop htk) hte hw hchild
    · rw [if_neg hvs] at hRv
      have hchild := (ih .inside s v path off blk _ hpre hwf.1 hRv (fun h => by cases h)).inside
      simp only [elemsB]
      cases hdec : decP pr.x pr.src pr.options e v blk off with
      | err i er b' => rw [hdec] at hchild; exact hchild
      | crash => rw [hdec] at hchild; exact hchild
      | unsup => trivial
      | ok b' =>
        rw [hdec] at hchild
        obtain ⟨s1, h1, h2, h3, h4, h5, h6, h7⟩ := hchild
        have hb1 := get_put h5
        have hdyn1 : s1.dyn (b + 1) = s.dyn (b + 1) := h6 _ (by omega)
        obtain ⟨hst, hdk⟩ := hval s1 h2 h3 h7
        have htk1 : pr.toks.drop s1.ti = flattenL s1.ti vs ++ te :: rest := by
          rw [h4]; exact toks_drop htk
        refine PostG.trans (h1.trans hst) ?_ h5 ?_ (ihv _ path (off + e.size pr.x) b' te rest rfl h3 ?_ htk1 hte hb1 hdk hwf.2 (ButLast.tail hR))
        · simp only [h4, flattenL, List.length_append]; omega
        · intro j hj
          have hj' : j ≠ b + 1 := by omega
          simp only [upd, if_neg hj']
          exact h6 j (by omega)
        · simp only [upd, if_pos, hdyn1]
          rw [hcs]
          exact add_size hp _

theorem simP_slice {pr : Prog} {b : Nat} {e : Ty} (hr : Rep pr.x pr.frames (.slice e) b) (ih : SimP pr e (b + 1)) : SimP pr (.slice e) b := by
  intro p s v path off blk rest h hwf hR hfin
  have hr' := hr
  obtain ⟨⟨f, hf, hty, hsz⟩, ⟨c, hc, hcp, -⟩, hre⟩ := hr
  obtain ⟨c', hc', hct, hcs⟩ := hre.frame
  rw [hc] at hc'; cases hc'
  have hW := W_pos pr.x
  cases v with
  | arr i vs k =>
    refine Post.toP (n := (flatten s.ti (.arr i vs k)).length) ?_ rfl hfin
    have hs := step_arr h hf
    have htk := h.toks
    simp only [flatten] at htk
    simp only [onArray, hty] at hs
    rw [h.si, hc] at hs
    simp only [] at hs
    simp only [decP, sliceB]
    by_cases hv : vs = []
    · subst hv
      simp only [List.length_nil, if_true] at hs
      rw [if_pos rfl]
      refine post_store (n := 2) h ?_
      rw [hs, h.sp]; simp only [h.si]; rfl
    · rw [if_neg (by simpa using hv)] at hs
      rw [if_neg hv]
      rw [h.sp, readCell_at h.blk] at hs
      cases hh : sliceHdr blk[off]? with
      | none => rw [hh] at hs; exact Halts.one hs (by simp)
      | some t =>
        obtain ⟨l, cp, a⟩ := t
        rw [hh] at hs
        simp only [hct, hcs, writeSeg_at h.blk] at hs
        simp only []
        cases hbl : blit blk off (seg (3 * pr.x.W) (growSlice (e.size pr.x) vs.length e.etype.isElemComposite l cp a)) with
        | none => rw [hbl] at hs; exact Halts.one hs (by simp)
        | some b1 =>
          rw [hbl] at hs
          obtain ⟨m1, hm1⟩ := putBlock_total b1 h.blk
          simp only [Option.bind_some, hm1] at hs
          obtain ⟨l', c', a', hg⟩ := growSlice_slice (e.size pr.x) vs.length e.etype.isElemComposite l cp a
          have hcell := blit_seg_get (by omega) hbl
          rw [hg] at hcell
          have harr : getBlock b1 [⟨off, .arr⟩] = some a' := by simp [getBlock, hcell, ownedBlock]
          simp only [harr]
          rw [post_iff]
          have hpath : getBlock m1 (path ++ [⟨off, .arr⟩]) = some a' := by
            rw [getBlock_append, get_put hm1]; exact harr
          have hloop := simP_sliceLoop hr' ih vs
            { s with mem := m1, ti := s.ti + 1, si := b + 1, dyn := upd s.dyn (b + 1) fun y => { y with dest := .at (Addr.into ⟨path, off⟩ .arr), offset := 0 } }
            (path ++ [⟨off, .arr⟩]) 0 a' ⟨.arrayEnd, k, k + 1, 0⟩ rest h.pc rfl
            (by simp [upd, Ptr.add, Addr.into])
            (by
              simp only []
              have := toks_drop (t := [_]) (r := flattenL (s.ti + 1) vs ++ ⟨.arrayEnd, k, k + 1, 0⟩ :: rest) (by rw [htk]; simp; rfl)
              simpa using this)
            rfl hpath
            (h.dyn.upd_elem (g := fun y => { y with dest := .at (Addr.into ⟨path, off⟩ .arr), offset := 0 }) (i := b + 1) hc hcp hf (.inr hty) rfl)
            hwf.2.2.2.2 hR
          refine PostG.into (Reach.one hs) ?_ hm1 ?_ hloop
          · simp [flatten]; omega
          · intro j hj
            have : j ≠ b + 1 := by simp only [Ty.width] at hj; have := width_pos e; omega
            simp only [upd, if_neg this]
  | obj i es k => exact (sim hr' s _ path off blk rest h).toP rfl hfin
  | null _ _ | bool _ _ _ | num _ _ _ | str _ _ => exact (sim hr' s _ path off blk rest h).toP rfl hfin

/-- The loop over the elements of an array. -/
theorem simP_arrLoop {pr : Prog} {b n : Nat} {e : Ty} (hr : Rep pr.x pr.frames (.array n e) b) (ih : SimP pr e (b + 1)) :
    ∀ (vs : List JVal) (s : St) (path : List Step) (off k : Nat) (blk : Block) (te : Token) (rest : List Token),
    s.pc = .loop → s.si = b + 1 → (s.dyn (b + 1)).dest.add (s.dyn (b + 1)).offset = .at ⟨path, off⟩ → (s.dyn (b + 1)).len = k → k < n →
    pr.toks.drop s.ti = flattenL s.ti vs ++ te :: rest → te.type = .arrayEnd → getBlock s.mem path = some blk → DynOK pr.frames s.dyn →
    WfL pr.src vs → (if vs.length ≤ n - k then ButLast (Right pr.x pr.src pr.options e .inside) (Right pr.x pr.src pr.options e .last) vs
      else ∀ w ∈ vs.take (n - k), Right pr.x pr.src pr.options e .inside w) →
    PostG pr s b b (b + (1 + e.width)) path ((flattenL s.ti vs).length + 1)
      (elemsB (decP pr.x pr.src pr.options e) (e.size pr.x) (vs.take (n - k)) blk off) := by
  intro vs
  obtain ⟨⟨f, hf, hty, hsz⟩, hn, ⟨c, hc, hcp, hcap⟩, hre⟩ := hr
  obtain ⟨c', hc', hct, hcs⟩ := hre.frame
  rw [hc] at hc'; cases hc'
  have hne : c.type ≠ .structRecur := hct ▸ etype_ne e
  have hw := width_pos e
  induction vs with
  | nil =>
    intro s path off k blk te rest hpc hsi hp hlen hk htk hte hb hd _ _
    simp only [flattenL, List.nil_append] at htk
    simp only [flattenL, List.take_nil, elemsB, List.length_nil, Nat.zero_add]
    exact sim_arrayEnd hpc hsi hc hne htk hte hb hd
  | cons v vs ihv =>
    intro s path off k blk te rest hpc hsi hp hlen hk htk hte hb hd hwf hR
    have htake : (v :: vs).take (n - k) = v :: vs.take (n - (k + 1)) := by
      have : n - k = (n - (k + 1)) + 1 := by omega
      rw [this, List.take_succ_cons]
    rw [htake] at hR ⊢
    simp only [flattenL, List.append_assoc] at htk
    have hpre : Pre pr s (b + 1) path off blk v (flattenL (s.ti + (flatten s.ti v).length) vs ++ te :: rest) :=
      ⟨hpc, hsi, hp, htk, hb, hd⟩
    by_cases hvs : vs = []
    · subst hvs
      rw [if_pos (by simp; omega)] at hR
      have hchild := ih .last s v path off blk _ hpre hwf.1 hR (fun h => by cases h)
      have hres : elemsB (decP pr.x pr.src pr.options e) (e.size pr.x) (v :: List.take (n - (k + 1)) []) blk off = decP pr.x pr.src pr.options e v blk off := by
        simp only [List.take_nil, elemsB]; cases decP pr.x pr.src pr.options e v blk off <;> rfl
      rw [hres]
      simp only [flattenL, List.append_nil]
      have htk' : pr.toks.drop (s.ti + (flatten s.ti v).length) = te :: rest := by simpa [flattenL] using toks_drop htk
      refine sim_lastElem hc hne (by omega) (fun s1 g1 g2 g3 g4 g5 => ?_) htk' hte hw hchild
      have hst : step pr s1 = onValEnd pr s1 c := by simp [step, g1, g2, hc]
      simp only [onValEnd, hcp, hf, hty, hcap] at hst
      have hlen1 : (s1.dyn (b + 1)).len = k := by rw [g4, hlen]
      have hlenu : ((upd s1.dyn s1.si fun y => { y with len := y.len + 1 }) s1.si).len = k + 1 := by
        simp only [upd, if_pos, g2, hlen1]
      simp only [hlenu] at hst
      have hA := g5.upd_elem (b := b) (g := fun y => { y with len := y.len + 1 }) (i := s1.si) (by rw [g2]; exact hc) hcp hf (.inl hty) rfl
      by_cases hge : k + 1 ≥ n
      · rw [if_pos hge, g3, htk'] at hst
        simp only [skipExtra, hte, Nat.le_refl, if_true, Option.map_some] at hst
        refine ⟨_, Reach.one hst, rfl, g2, g3.symm, rfl, fun j hj => ?_, hA⟩
        simp only [upd, g2, if_neg hj]
      · rw [if_neg hge] at hst
        refine ⟨_, Reach.one hst, rfl, g2, rfl, rfl, fun j hj => ?_, hA.upd_elem (b := b) (g := fun y => { y with offset := y.offset + c.size }) (i := s1.si) (by rw [g2]; exact hc) hcp hf (.inl hty) rfl⟩
        simp only [upd, g2, if_neg hj]
    · have hpos : 0 < vs.length := List.length_pos_iff.2 hvs
      have hRv : Right pr.x pr.src pr.options e .inside v := by
        split at hR
        · have := ButLast.at (F := Right pr.x pr.src pr.options e) hR
          rwa [if_neg hvs] at this
        · exact hR v List.mem_cons_self
      have hRt : if vs.length ≤ n - (k + 1) then ButLast (Right pr.x pr.src pr.options e .inside) (Right pr.x pr.src pr.options e .last) vs
          else ∀ w ∈ vs.take (n - (k + 1)), Right pr.x pr.src pr.options e .inside w := by
        by_cases hl : vs.length ≤ n - (k + 1)
        · rw [if_pos hl]
          rw [if_pos (by simp only [List.length_cons]; omega)] at hR
          exact ButLast.tail hR
        · rw [if_neg hl]
          rw [if_neg (by simp only [List.length_cons]; omega)] at hR
          exact fun w hw => hR w (List.mem_cons_of_mem _ hw)
      have hchild := (ih .inside s v path off blk _ hpre hwf.1 hRv (fun h => by cases h)).inside
      simp only [elemsB]
      cases hdec : decP pr.x pr.src pr.options e v blk off with
      | err i er b' => rw [hdec] at hchild; exact hchild
      | crash => rw [hdec] at hchild; exact hchild
      | unsup => trivial
      | ok b' =>
        rw [hdec] at hchild
        obtain ⟨s1, h1, h2, h3, h4, h5, h6, h7⟩ := hchild
        have hb1 := get_put h5
        have hdyn1 : s1.dyn (b + 1) = s.dyn (b + 1) := h6 _ (by omega)
        have hst : step pr s1 = onValEnd pr s1 c := by simp [step, h2, h3, hc]
        simp only [onValEnd, hcp, hf, hty, hcap] at hst
        have htk1 : pr.toks.drop s1.ti = flattenL s1.ti vs ++ te :: rest := by
          rw [h4]; exact toks_drop htk
        have hlen1 : (s1.dyn (b + 1)).len = k := by rw [hdyn1, hlen]
        have hlenu : ((upd s1.dyn s1.si fun y => { y with len := y.len + 1 }) s1.si).len = k + 1 := by
          simp only [upd, if_pos, h3, hlen1]
        simp only [hlenu] at hst
        by_cases hge : k + 1 ≥ n
        · -- all the room is used: skip the rest
          rw [if_pos hge] at hst
          rw [htk1, skip_flattenL vs 0 s1.ti] at hst
          simp only [skipExtra, hte, Nat.le_refl, if_true, Option.map_some, Nat.zero_add] at hst
          have hn0 : n - (k + 1) = 0 := by omega
          rw [hn0, List.take_zero]
          simp only [elemsB]
          refine PostG.trans (h1.trans (Reach.one hst)) ?_ h5 ?_ (sim_arrayEnd (b := b) (w := 1 + e.width) (te := te) (rest := rest) rfl ?_ hc hne ?_ hte hb1 ?_)
          · simp only [h4, flattenL, List.length_append]; omega
          · intro j hj
            have hj' : j ≠ s1.si := by rw [h3]; omega
            simp only [upd, if_neg hj']
            exact h6 j (by omega)
          · simp only [h3]
          · exact toks_drop htk1
          · exact h7.upd_elem (b := b) (g := fun y => { y with len := y.len + 1 }) (i := s1.si) (by rw [h3]; exact hc) hcp hf (.inl hty) rfl
        · rw [if_neg hge] at hst
          refine PostG.trans (h1.trans (Reach.one hst)) ?_ h5 ?_ (ihv _ path (off + e.size pr.x) (k + 1) b' te rest rfl ?_ ?_ ?_ (by omega) htk1 hte hb1 ?_ hwf.2 hRt)
          · simp only [h4, flattenL, List.length_append]; omega
          · intro j hj
            have hj' : j ≠ s1.si := by rw [h3]; omega
            simp only [upd, if_neg hj']
            exact h6 j (by omega)
          · simp only [h3]
          · simp only [upd, h3, if_pos, hdyn1]
            rw [hcs]
            cases hdst : (s.dyn (b + 1)).dest with
            | «at» a =>
              rw [hdst] at hp
              simp only [Ptr.add, Ptr.at.injEq, Addr.mk.injEq] at hp ⊢
              exact ⟨hp.1, by omega⟩
            | nil => rw [hdst] at hp; simp [Ptr.add] at hp
            | stale => rw [hdst] at hp; simp [Ptr.add] at hp
          · simp only [upd, h3, if_pos, hlen1]
          · have hA := h7.upd_elem (b := b) (g := fun y => { y with len := y.len + 1 }) (i := s1.si) (by rw [h3]; exact hc) hcp hf (.inl hty) rfl
            exact hA.upd_elem (b := b) (g := fun y => { y with offset := y.offset + c.size }) (i := s1.si) (by rw [h3]; exact hc) hcp hf (.inl hty) rfl

theorem simP_array {pr : Prog} {b n : Nat} {e : Ty} (hr : Rep pr.x pr.frames (.array n e) b) (ih : SimP pr e (b + 1)) : SimP pr (.array n e) b := by
  intro p s v path off blk rest h hwf hR hfin
  have hr' := hr
  obtain ⟨⟨f, hf, hty, hsz⟩, hn, ⟨c, hc, hcp, hcap⟩, hre⟩ := hr
  cases v with
  | arr i vs k =>
    have hs := step_arr h hf
    have htk := h.toks
    simp only [flatten] at htk
    simp only [onArray, hty] at hs
    simp only [decP]
    refine Post.toP (n := (flatten s.ti (.arr i vs k)).length) ?_ rfl hfin
    by_cases hv : vs = []
    · subst hv
      simp only [List.length_nil, Nat.lt_one_iff, if_true] at hs
      simp only [List.take_nil, elemsB]
      exact ⟨_, Reach.one hs, rfl, h.si, by simp [flatten, flattenL], put_get h.blk, fun _ _ => rfl, h.dyn⟩
    · rw [if_neg (by simpa [Nat.lt_one_iff] using hv)] at hs
      rw [post_iff]
      have hloop := simP_arrLoop hr' ih vs
        { s with ti := s.ti + 1, si := s.si + 1, dyn := upd s.dyn (s.si + 1) fun y => { y with dest := s.p, len := 0, offset := 0 } }
        path off 0 blk ⟨.arrayEnd, k, k + 1, 0⟩ rest h.pc (by simp [h.si])
        (by simp [upd, h.si, h.sp, Ptr.add]) (by simp [upd, h.si]) hn
        (by
          simp only []
          have := toks_drop (t := [_]) (r := flattenL (s.ti + 1) vs ++ ⟨.arrayEnd, k, k + 1, 0⟩ :: rest) (by rw [htk]; simp; rfl)
          simpa using this)
        rfl h.blk
        (h.dyn.upd_elem (g := fun y => { y with dest := s.p, len := 0, offset := 0 }) (i := s.si + 1) (by rw [h.si]; exact hc) hcp hf (.inl hty) rfl)
        hwf.2.2.2.2 hR
      refine PostG.trans (Reach.one hs) ?_ (put_get h.blk) ?_ hloop
      · simp [flatten]; omega
      · intro j hj
        have : j ≠ s.si + 1 := by rw [h.si]; simp only [Ty.width] at hj; have := width_pos e; omega
        simp only [upd, if_neg this]
  | obj i es k => exact (sim hr' s _ path off blk rest h).toP rfl hfin
  | null _ _ | bool _ _ _ | num _ _ _ | str _ _ => exact (sim hr' s _ path off blk rest h).toP rfl hfin

/-! ## Maps and structs -/

theorem valEnd_obj {pr : Prog} {s : St} {b : Nat} {c f : Frame} (hpc : s.pc = .valEnd) (hc : pr.frames[s.si]? = some c) (hcp : c.parent = some b) (hf : pr.frames[b]? = some f)
    (hty : f.type = .struct ∨ f.type = .map) : step pr s = .run { s with pc := .loop, si := b } := by
  have hst : step pr s = onValEnd pr s c := by simp [step, hpc, hc]
  rw [hst]
  rcases hty with h | h <;> simp only [onValEnd, hcp, hf, h]

/-- The closing brace behind the last member. -/
theorem close_obj {pr : Prog} {s : St} {p : Place} {b c lo hi T : Nat} {path : List Step} {r : Res} {cf f : Frame} {te : Token} {rest : List Token}
    (hc : pr.frames[c]? = some cf) (hc1 : cf.type ≠ .mapRecur) (hc2 : cf.type ≠ .structRecur) (hcp : cf.parent = some b) (hf : pr.frames[b]? = some f)
    (hty : f.type = .struct ∨ f.type = .map) (htk : pr.toks.drop T = te :: rest) (hte : te.type = .objectEnd)
    (h : PostP pr s p c lo hi T path r) : PostP pr s p b lo hi (T + 1) path r := by
  have hf1 : f.type ≠ .mapRecur := by rcases hty with h | h <;> rw [h] <;> simp
  have hf2 : f.type ≠ .structRecur := by rcases hty with h | h <;> rw [h] <;> simp
  cases r with
  | ok blk' =>
    obtain ⟨s1, k1, ⟨k2, k3⟩, k4, k5⟩ := h
    have hA : s1.pc = .valEnd → s1.si = c → s1.ti = T → Reach pr s1 { s1 with si := b, ti := T + 1, pc := .valEnd } := by
      intro g1 g2 g3
      have h1 := valEnd_obj g1 (by rw [g2]; exact hc) hcp hf hty
      have h2 := close_step (s := { s1 with pc := .loop, si := b }) hf hf1 hf2 rfl (by simp only [g3]; exact htk) hte k5
      simp only [g3] at h2
      rw [g3] at h1
      exact (Reach.one h1).trans h2
    have hB : s1.pc = .loop → s1.si = c → s1.ti = T → Reach pr s1 { s1 with si := b, ti := T + 1, pc := .loop } := by
      intro g1 g2 g3
      have h2 := close_step (s := s1) (by rw [g2]; exact hc) hc1 hc2 g1 (by rw [g3]; exact htk) hte k5
      have h1 := valEnd_obj (s := { s1 with ti := s1.ti + 1, pc := .valEnd }) rfl (by simp only [g2]; exact hc) hcp hf hty
      simp only [g3] at h1 h2
      exact h2.trans (Reach.one h1)
    cases p with
    | inside => exact ⟨_, k1.trans (hA k3.1 k3.2.1 k3.2.2), ⟨k2, rfl, rfl, rfl⟩, k4, k5⟩
    | last =>
      rcases k3 with ⟨g | g, g2, g3⟩
      · exact ⟨_, k1.trans (hA g g2 g3), ⟨k2, .inl rfl, rfl, rfl⟩, k4, k5⟩
      · exact ⟨_, k1.trans (hB g g2 g3), ⟨k2, .inr rfl, rfl, rfl⟩, k4, k5⟩
    | final => exact ⟨s1, k1, ⟨k2, k3⟩, k4, k5⟩
  | err i e blk' => exact h
  | crash => exact h
  | unsup => trivial

theorem Fin.member {pr : Prog} {p : Place} {b c T : Nat} {cf f : Frame} {te : Token} {rest : List Token}
    (hc : pr.frames[c]? = some cf) (hc1 : cf.type ≠ .mapRecur) (hc2 : cf.type ≠ .structRecur) (hcp : cf.parent = some b) (hf : pr.frames[b]? = some f)
    (hty : f.type = .struct ∨ f.type = .map) (htk : pr.toks.drop T = te :: rest) (hte : te.type = .objectEnd) (h : Fin pr p b (T + 1)) : Fin pr p c T := by
  intro hp
  obtain ⟨h1, h2⟩ := h hp
  refine ⟨.link hc hc1 hc2 hcp hf (hty.imp id .inl) h1, fun t ht => ?_⟩
  rw [htk] at ht
  rcases List.mem_cons.1 ht with rfl | ht
  · exact hte
  · refine h2 t ?_
    rw [show pr.toks.drop (T + 1) = rest from by simpa using toks_drop (t := [te]) (r := rest) (by rw [htk]; rfl)]
    exact ht

theorem etype_ne' (ty : Ty) : ty.etype ≠ .mapRecur := by cases ty <;> simp [Ty.etype]

/-- The loop over the members of an object decoded into a map. -/
theorem simP_mapLoop {pr : Prog} {b : Nat} {k : KeyTy} {e : Ty} (hr : Rep pr.x pr.frames (.map k e) b) (ih : SimP pr e (b + 2)) (hk : k ≠ .other) :
    ∀ (p : Place) (ms : List ((Nat × Nat) × JVal)) (s : St) (path : List Step) (off : Nat) (blk : Block) (te : Token) (rest : List Token),
    s.pc = .loop → s.si = b → (s.dyn b).dest.add (s.dyn b).offset = .at ⟨path, off⟩ →
    pr.toks.drop s.ti = flattenM s.ti ms ++ te :: rest → te.type = .objectEnd → getBlock s.mem path = some blk → DynOK pr.frames s.dyn →
    WfM pr.src ms → ButLast (fun m => Right pr.x pr.src pr.options e .inside m.2) (fun m => Right pr.x pr.src pr.options e p m.2) ms → Fin pr p b (s.ti + ((flattenM s.ti ms).length + 1)) →
    PostP pr s p b b (b + (2 + e.width)) (s.ti + ((flattenM s.ti ms).length + 1)) path
      (mapB pr.x pr.src (decP pr.x pr.src pr.options e) k (e.size pr.x) (e.etype == .struct) ms blk off) := by
  intro p ms
  obtain ⟨⟨f, hf, hty, hsz, hvs, hfast⟩, ⟨fk, hfk, hfkp, hkr⟩, ⟨c, hc, hcp, hco⟩, hre⟩ := hr
  obtain ⟨c', hc', hct, hcs⟩ := hre.frame
  rw [hc] at hc'; cases hc'
  have hw := width_pos e
  have hW := W_pos pr.x
  induction ms with
  | nil =>
    intro s path off blk te rest hpc hsi hp htk hte hb hd hwf hR hfin
    simp only [flattenM, List.nil_append] at htk
    simp only [mapB]
    exact (sim_mapEnd hpc hsi hf hty htk hte hb hd).toP (by simp [flattenM]) hfin
  | cons m ms ihm =>
    obtain ⟨⟨i, en⟩, v⟩ := m
    intro s path off blk te rest hpc hsi hp htk hte hb hd hwf hR hfin
    simp only [flattenM, List.append_assoc, List.cons_append] at htk
    have hs := step_loop hpc (toks_head htk) (by rw [hsi]; exact hf)
    have hsp : s.p = .at ⟨path, off⟩ := by simp only [St.p, hsi]; exact hp
    simp only [dispatch, onKey, hty, hsi, hfk, hsp] at hs
    simp only [mapB]
    cases hkey : Model.slice pr.src (i + 1) (en - 1) with
    | none => rw [hkey] at hs; exact Halts.one hs (by simp)
    | some key =>
      rw [hkey] at hs
      simp only [mapKeyOf_rep hkr hk] at hs ⊢
      cases hkk : k.key pr.x key with
      | none => rw [hkk] at hs; exact Halts.one hs (by simp)
      | some r =>
        rw [hkk] at hs
        cases r with
        | error er =>
          simp only [Option.map_some, Except.map] at hs
          exact ⟨s, Halts.one hs (by simp), put_get hb, hd⟩
        | ok k' =>
          simp only [Option.map_some, Except.map, mapAssign_eq hfast, assignEntry_at hb, hvs] at hs
          simp only []
          cases has : assignEntry pr.x.W (e.size pr.x) blk ⟨[], off⟩ k' with
          | none => rw [has] at hs; exact Halts.one hs (by simp)
          | some b1 =>
            obtain ⟨eb, heb⟩ := assignEntry_get hW has
            rw [has] at hs
            obtain ⟨m1, hm1⟩ := putBlock_total b1 hb
            simp only [Option.bind_some, hm1, Option.map_some] at hs
            have hne : ¬ (EType.map = EType.mapRecur) := by simp
            rw [if_neg hne, hc] at hs
            simp only [] at hs
            simp only [heb]
            have hpath : getBlock m1 (path ++ [⟨off, .entry k'⟩]) = some eb := by
              rw [getBlock_append, get_put hm1]; exact heb
            -- the state in which the value is decoded
            have main : ∀ (eb' : Block) (m2 : Block), putBlock m1 (path ++ [⟨off, .entry k'⟩]) eb' = some m2 →
                step pr s = .run { s with mem := m2, dyn := upd s.dyn (b + 2) fun y => { y with dest := .at (Addr.into ⟨path, off⟩ (.entry k')) },
                                          si := b + 2, ti := s.ti + 1 } →
                PostP pr s p b b (b + (2 + e.width)) (s.ti + ((flattenM s.ti (((i, en), v) :: ms)).length + 1)) path
                  (match (decP pr.x pr.src pr.options e v eb' 0).bindB (putIn b1 off (.entry k')) with
                    | .ok b => mapB pr.x pr.src (decP pr.x pr.src pr.options e) k (e.size pr.x) (e.etype == .struct) ms b off
                    | r => r) := by
              intro eb' m2 hm2 hst
              have hpre : Pre pr { s with mem := m2, dyn := upd s.dyn (b + 2) fun y => { y with dest := .at (Addr.into ⟨path, off⟩ (.entry k')) },
                                          si := b + 2, ti := s.ti + 1 } (b + 2) (path ++ [⟨off, .entry k'⟩]) 0 eb' v
                  (flattenM (s.ti + 1 + (flatten (s.ti + 1) v).length) ms ++ te :: rest) := by
                refine ⟨hpc, rfl, ?_, ?_, get_put hm2, hd.upd_dest (b + 2) (g := fun y => { y with dest := .at (Addr.into ⟨path, off⟩ (.entry k')) }) rfl rfl⟩
                · have := hd.off (b + 2) c b f hc (by rw [hct]; exact etype_ne e) hcp hf (.inr (.inl hty))
                  simp [upd, Ptr.add, Addr.into, this, hco]
                · have := toks_drop (t := [_]) (r := flatten (s.ti + 1) v ++ (flattenM (s.ti + 1 + (flatten (s.ti + 1) v).length) ms ++ te :: rest))
                    (by rw [htk]; simp; rfl)
                  simpa using this
              -- the map after the entry has been set
              obtain ⟨b2, hb2⟩ : ∃ b2, putBlock b1 [⟨off, .entry k'⟩] eb' = some b2 := putBlock_total eb' heb
              have hm2' : putBlock s.mem path b2 = some m2 := by
                rw [putBlock_append (get_put hm1), hb2] at hm2
                rw [← hm2]
                exact (put_put hm1).symm
              have hput : putIn b2 off (.entry k') = putIn b1 off (.entry k') := funext fun n => put_put hb2
              have hRv := ButLast.at (F := fun p (m : (Nat × Nat) × JVal) => Right pr.x pr.src pr.options e p m.2) hR
              have hcr1 : c.type ≠ .mapRecur := by rw [hct]; exact etype_ne' e
              have hcr2 : c.type ≠ .structRecur := by rw [hct]; exact etype_ne e
              have htkn := toks_drop hpre.toks
              simp only [] at htkn
              have hin : ∀ p', Right pr.x pr.src pr.options e p' v → Fin pr p' (b + 2) (s.ti + 1 + (flatten (s.ti + 1) v).length) →
                  PostP pr s p' (b + 2) b (b + (2 + e.width)) (s.ti + 1 + (flatten (s.ti + 1) v).length) path ((decP pr.x pr.src pr.options e v eb' 0).bindB (putIn b1 off (.entry k'))) := by
                intro p' hRp hfp
                have hchild := ih p' _ v _ 0 eb' _ hpre hwf.2.1 hRp hfp
                rw [← hput]
                exact PostP.into (b1 := b2) (off := off) (sel := .entry k') (Reach.one hst) hm2'
                  (fun j hj => by
                    have : j ≠ b + 2 := by omega
                    simp only [upd, if_neg this])
                  (hchild.widen (lo' := b) (hi' := b + (2 + e.width)) (by omega) (by omega))
              by_cases hms : ms = []
              · subst hms
                rw [if_pos rfl] at hRv
                simp only [flattenM, List.nil_append] at htkn
                have hTe : s.ti + ((flattenM s.ti [((i, en), v)]).length + 1) = s.ti + 1 + (flatten (s.ti + 1) v).length + 1 := by
                  simp only [flattenM, List.length_cons, List.length_append, List.length_nil]; omega
                rw [hTe] at hfin ⊢
                have hin := hin p hRv (hfin.member hc hcr1 hcr2 hcp hf (.inr hty) htkn hte)
                have hres : (match (decP pr.x pr.src pr.options e v eb' 0).bindB (putIn b1 off (.entry k')) with
                    | .ok b => mapB pr.x pr.src (decP pr.x pr.src pr.options e) k (e.size pr.x) (e.etype == .struct) [] b off
                    | r => r) = (decP pr.x pr.src pr.options e v eb' 0).bindB (putIn b1 off (.entry k')) := by
                  cases (decP pr.x pr.src pr.options e v eb' 0).bindB (putIn b1 off (.entry k')) <;> simp [mapB]
                rw [hres]
                exact close_obj hc hcr1 hcr2 hcp hf (.inr hty) htkn hte hin
              · rw [if_neg hms] at hRv
                have hin := hin .inside hRv (fun h => by cases h)
                cases hres : (decP pr.x pr.src pr.options e v eb' 0).bindB (putIn b1 off (.entry k')) with
                | err i' er b' => rw [hres] at hin; exact hin
                | crash => rw [hres] at hin; exact hin
                | unsup => trivial
                | ok b3 =>
                  rw [hres] at hin
                  obtain ⟨s3, h1, ⟨h6, h2, h3, h4⟩, h5, h7⟩ := hin
                  have hst3 : step pr s3 = onValEnd pr s3 c := by simp [step, h2, h3, hc]
                  simp only [onValEnd, hcp, hf, hty] at hst3
                  have htk3 : pr.toks.drop s3.ti = flattenM s3.ti ms ++ te :: rest := by
                    rw [h4]; exact htkn
                  have hdyn3 : s3.dyn b = s.dyn b := h6 _ (by omega)
                  have hTe : s.ti + ((flattenM s.ti (((i, en), v) :: ms)).length + 1) = s3.ti + ((flattenM s3.ti ms).length + 1) := by
                    have hl : (flattenM s3.ti ms).length = (flattenM (s.ti + 1 + (flatten (s.ti + 1) v).length) ms).length := flattenM_len _ _ _
                    simp only [flattenM, List.length_cons, List.length_append, hl]; omega
                  rw [hTe] at hfin ⊢
                  exact PostP.trans (h1.trans (Reach.one hst3)) h5 h6 (ihm _ path off b3 te rest rfl rfl (by simp only [hdyn3]; exact hp) htk3 hte (get_put h5) h7 hwf.2.2 (ButLast.tail hR) hfin)
            by_cases hst : e.etype = .struct
            · have hcst : c.type = .struct := hct.trans hst
              rw [hcst] at hs
              simp only [true_or, if_true, Addr.into, writeSeg_at hpath] at hs
              have hbe : (e.etype == EType.struct) = true := by simp [hst]
              simp only [hbe, if_true]
              cases hbz : blit eb 0 (zeros (e.size pr.x)) with
              | none => rw [hbz] at hs; exact Halts.one hs (by simp)
              | some eb' =>
                rw [hbz] at hs
                obtain ⟨m2, hm2⟩ := putBlock_total eb' hpath
                simp only [Option.bind_some, hm2] at hs
                have := main eb' m2 hm2 hs
                rw [hbe] at this
                exact this
            · have hcst : ¬ (c.type = .struct ∨ c.type = .structRecur) := by
                rw [hct]; intro h
                rcases h with h | h
                · exact hst h
                · exact etype_ne e h
              rw [if_neg hcst] at hs
              have hbe : (e.etype == EType.struct) = false := by simp [hst]
              simp only [hbe]
              have := main eb m1 (put_get hpath) hs
              rw [hbe] at this
              exact this
theorem simP_map {pr : Prog} {b : Nat} {k : KeyTy} {e : Ty} (hr : Rep pr.x pr.frames (.map k e) b) (ih : SimP pr e (b + 2)) : SimP pr (.map k e) b := by
  intro p s v path off blk rest h hwf hR hfin
  have hr' := hr
  obtain ⟨⟨f, hf, hty, hsz, hvs, hfast⟩, ⟨fk, hfk, hfkp, hkr⟩, ⟨c, hc, hcp, hco⟩, hre⟩ := hr
  cases v with
  | obj i ms k1 =>
    have hs := step_obj h hf
    have htk := h.toks
    simp only [flatten] at htk
    simp only [onObject, hty, h.sp, ensureMap_at h.blk] at hs
    simp only [decP]
    cases hen : ensureMap pr.x.W blk (.at ⟨[], off⟩) with
    | none => rw [hen] at hs; exact Halts.one hs (by simp)
    | some b1 =>
      rw [hen] at hs
      obtain ⟨m1, hm1⟩ := putBlock_total b1 h.blk
      simp only [Option.bind_some, hm1] at hs
      simp only []
      by_cases hm : ms = []
      · subst hm
        simp only [List.length_nil, if_true] at hs
        simp only [ne_eq, not_true_eq_false, and_false, if_false, mapB]
        exact Post.toP (w := (Ty.map k e).width) (n := 2) ⟨_, Reach.one hs, rfl, h.si, rfl, hm1, fun _ _ => rfl, h.dyn⟩ rfl hfin
      · rw [if_neg (by simpa using hm)] at hs
        by_cases hk : k = .other
        · rw [if_pos ⟨hk, hm⟩]; trivial
        · rw [if_neg (fun hc => hk hc.1)]
          have hTe : s.ti + (flatten s.ti (.obj i ms k1)).length = s.ti + 1 + ((flattenM (s.ti + 1) ms).length + 1) := by simp [flatten]; omega
          rw [hTe] at hfin ⊢
          have hloop := simP_mapLoop hr' ih hk p ms { s with mem := m1, ti := s.ti + 1 } path off b1 ⟨.objectEnd, k1, k1 + 1, 0⟩ rest h.pc h.si h.p
            (by
              simp only []
              have := toks_drop (t := [_]) (r := flattenM (s.ti + 1) ms ++ ⟨.objectEnd, k1, k1 + 1, 0⟩ :: rest) (by rw [htk]; simp; rfl)
              simpa using this)
            rfl (get_put hm1) h.dyn hwf.2.2.2.2 hR.2 hfin
          exact PostP.trans (Reach.one hs) hm1 (fun _ _ => rfl) hloop
  | arr i es k => exact (sim hr' s _ path off blk rest h).toP rfl hfin
  | null _ _ | bool _ _ _ | num _ _ _ | str _ _ => exact (sim hr' s _ path off blk rest h).toP rfl hfin

theorem decPF_get (x : Ext) (src : Bytes) (o : Option Options) : ∀ (fs : List (Bytes × Nat × Ty)) (j : Nat),
    (decPF x src o fs)[j]? = (fs[j]?).map fun (n, fo, t) => (n, fo, decP x src o t)
  | [], _ => rfl
  | _ :: _, 0 => rfl
  | _ :: fs, j + 1 => by simpa [decPF] using decPF_get x src o fs j

theorem decPF_names (x : Ext) (src : Bytes) (o : Option Options) : ∀ (fs : List (Bytes × Nat × Ty)),
    (decPF x src o fs).map (·.1) = fs.map (·.1)
  | [] => rfl
  | _ :: fs => by simp [decPF, decPF_names x src o fs]

theorem rightF_get (x : Ext) (src : Bytes) (o : Option Options) : ∀ (fs : List (Bytes × Nat × Ty)) (j : Nat) (n : Bytes) (fo : Nat) (t : Ty), fs[j]? = some (n, fo, t) →
    (RightF x src o fs)[j]? = some (Right x src o t)
  | [], _, _, _, _, h => by simp at h
  | (_, _, _) :: _, 0, _, _, _, h => by simp at h; simp [RightF, h.2.2]
  | (_, _, _) :: fs, j + 1, n, fo, t, h => by simpa [RightF] using rightF_get x src o fs j n fo t (by simpa using h)

theorem wfM_suffix {src : Bytes} : ∀ {pre ms : List ((Nat × Nat) × JVal)}, WfM src (pre ++ ms) → WfM src ms
  | [], _, h => h
  | _ :: pre, _, h => wfM_suffix (pre := pre) h.2.2

/-- The loop over the members of an object decoded into a struct. -/
theorem simP_structLoop {pr : Prog} {b : Nat} {size : Nat} {fields : List (Bytes × Nat × Ty)} {f : Frame} (hf : pr.frames[b]? = some f)
    (hty : f.type = .struct) (hrf : RepFields pr.x pr.frames b fields (b + 1) f.fields)
    (ih : ∀ (j : Nat) (n : Bytes) (p fo : Nat) (t : Ty), f.fields[j]? = some (n, p) → fields[j]? = some (n, fo, t) → SimP pr t p)
    {o : Options} (ho : pr.options = some o) :
    ∀ (pl : Place) (N : Nat) (ms : List ((Nat × Nat) × JVal)), ms.length ≤ N → ∀ (s : St) (path : List Step) (off : Nat) (blk : Block) (te : Token) (rest : List Token),
    s.pc = .loop → s.si = b → (∀ q ∈ f.fields, (s.dyn q.2).dest = .at ⟨path, off⟩) →
    pr.toks.drop s.ti = flattenM s.ti ms ++ te :: rest → te.type = .objectEnd → getBlock s.mem path = some blk → DynOK pr.frames s.dyn →
    WfM pr.src ms → ButLast (RightM pr.x pr.src o (fields.map (·.1)) (RightF pr.x pr.src pr.options fields) .inside) (RightM pr.x pr.src o (fields.map (·.1)) (RightF pr.x pr.src pr.options fields) pl) ms →
    Fin pr pl b (s.ti + ((flattenM s.ti ms).length + 1)) →
    PostP pr s pl b b (b + (1 + widthF fields)) (s.ti + ((flattenM s.ti ms).length + 1)) path
      (structB pr.x pr.src o (decPF pr.x pr.src pr.options fields) ms blk off) := by
  intro pl N
  induction N with
  | zero =>
    intro ms hN s path off blk te rest hpc hsi hp htk hte hb hd hwf hR hfin
    have : ms = [] := List.length_eq_zero_iff.1 (by omega)
    subst this
    simp only [flattenM, List.nil_append] at htk
    simp only [structB]
    exact (sim_structEnd hpc hsi hf hty htk hte hb hd).toP (by simp [flattenM]) hfin
  | succ N ihN =>
    intro ms hN s path off blk te rest hpc hsi hp htk hte hb hd hwf hR hfin
    by_cases hms : ms = []
    · subst hms
      simp only [flattenM, List.nil_append] at htk
      simp only [structB]
      exact (sim_structEnd hpc hsi hf hty htk hte hb hd).toP (by simp [flattenM]) hfin
    have hs : step pr s = match scanKeys pr.x pr.src o f.fields none (pr.toks.drop s.ti) s.ti with
        | .crash => .crash
        | .unknown i => .err i .unknownField s
        | .brk ti => .run { s with ti := ti + 1 }
        | .found ti fi => .run { s with ti := ti + 1, si := fi } := by
      obtain ⟨⟨⟨i, en⟩, v⟩, ms', rfl⟩ := List.exists_cons_of_ne_nil hms
      simp only [flattenM, List.append_assoc, List.cons_append] at htk
      have hs := step_loop hpc (toks_head htk) (by rw [hsi]; exact hf)
      simp only [dispatch, onKey, hty, ho] at hs
      exact hs
    rw [htk] at hs
    have hnames : f.fields.map (·.1) = (decPF pr.x pr.src pr.options fields).map (·.1) := by
      rw [decPF_names]; exact repFields_names hrf
    rcases scan_struct (x := pr.x) (src := pr.src) (o := o) hnames blk off te hte rest ms none s.ti (.inl ⟨rfl, hms⟩) with
      ⟨h1, h2⟩ | ⟨i, h1, h2⟩ | h1 | ⟨h1, h2⟩ | ⟨pre, i, e, v, ms', j, n, fo, g, p, h0, h1, h2, h3, h4, h5, name, hname, hfind⟩
    · rw [h1]; rw [h2] at hs; exact Halts.one hs (by simp)
    · rw [h1]; rw [h2] at hs; exact ⟨s, Halts.one hs (by simp), put_get hb, hd⟩
    · rw [h1]; trivial
    · rw [h1]; rw [h2] at hs
      have hpos : 0 < (flattenM s.ti ms).length := by
        obtain ⟨⟨⟨i, en⟩, v⟩, ms', rfl⟩ := List.exists_cons_of_ne_nil hms
        simp [flattenM]
      refine PostP.trans (Reach.one hs) (put_get hb) (fun _ _ => rfl)
        ((sim_structEnd (s := { s with ti := s.ti + (flattenM s.ti ms).length - 1 + 1 }) (te := te) (rest := rest) hpc hsi hf hty ?_ hte hb hd).toP (by simp only []; omega) hfin)
      · simp only []
        have e1 : s.ti + (flattenM s.ti ms).length - 1 + 1 = s.ti + (flattenM s.ti ms).length := by omega
        rw [e1]
        exact toks_drop htk
    · rw [h3] at hs
      simp only [] at hs
      rw [decPF_get] at h1
      obtain ⟨fo', t, hfj, ⟨c, hc, hcp, hco⟩, hrt, hlo, hhi, hother⟩ := repFields_get hrf h2
      rw [hfj] at h1
      simp only [Option.map_some, Option.some.injEq, Prod.mk.injEq, true_and] at h1
      obtain ⟨rfl, rfl⟩ := h1
      -- tokens of the value
      subst h0
      rw [flattenM_append] at htk
      simp only [flattenM, List.append_assoc, List.cons_append] at htk
      have htk1 := toks_drop htk
      have htk2 : pr.toks.drop (s.ti + (flattenM s.ti pre).length + 1) =
          flatten (s.ti + (flattenM s.ti pre).length + 1) v ++
            (flattenM (s.ti + (flattenM s.ti pre).length + 1 + (flatten (s.ti + (flattenM s.ti pre).length + 1) v).length) ms' ++ te :: rest) := by
        have := toks_drop (t := [_]) (r := flatten (s.ti + (flattenM s.ti pre).length + 1) v ++
            (flattenM (s.ti + (flattenM s.ti pre).length + 1 + (flatten (s.ti + (flattenM s.ti pre).length + 1) v).length) ms' ++ te :: rest))
            (by rw [htk1]; simp; rfl)
        simpa using this
      have hpre : Pre pr { s with ti := s.ti + (flattenM s.ti pre).length + 1, si := p } p path (off + fo') blk v
          (flattenM (s.ti + (flattenM s.ti pre).length + 1 + (flatten (s.ti + (flattenM s.ti pre).length + 1) v).length) ms' ++ te :: rest) := by
        refine ⟨hpc, rfl, ?_, htk2, hb, hd⟩
        have hmem : (n, p) ∈ f.fields := List.mem_of_getElem? h2
        have hcn : c.type ≠ .structRecur := by
          obtain ⟨c', hc', hct, -⟩ := hrt.frame
          rw [hc] at hc'; cases hc'; rw [hct]; exact etype_ne t
        have hoff := hd.off p c b f hc hcn hcp hf (.inl hty)
        simp only []
        rw [hp _ hmem, hoff, hco]
        rfl
      have hlen : s.ti + ((flattenM s.ti (pre ++ ((i, e), v) :: ms')).length + 1) = s.ti + (flattenM s.ti pre).length + 1 + (flatten (s.ti + (flattenM s.ti pre).length + 1) v).length +
          ((flattenM (s.ti + (flattenM s.ti pre).length + 1 + (flatten (s.ti + (flattenM s.ti pre).length + 1) v).length) ms').length + 1) := by
        rw [flattenM_append]
        simp only [flattenM, List.length_append, List.length_cons]
        omega
      rw [hlen] at hfin ⊢
      have hct : c.type = t.etype := by
        obtain ⟨c', hc', hct, -⟩ := hrt.frame
        rw [hc] at hc'; cases hc'; exact hct
      have hcr1 : c.type ≠ .mapRecur := by rw [hct]; exact etype_ne' t
      have hcr2 : c.type ≠ .structRecur := by rw [hct]; exact etype_ne t
      have hwv : Wf pr.src v := (Safe.wfM_mem hwf _ (List.mem_append_right pre List.mem_cons_self)).2
      have hwt : WfM pr.src ms' := wfM_suffix (pre := pre ++ [((i, e), v)]) (by simpa using hwf)
      have hRs : ButLast (RightM pr.x pr.src o (fields.map (·.1)) (RightF pr.x pr.src pr.options fields) .inside) (RightM pr.x pr.src o (fields.map (·.1)) (RightF pr.x pr.src pr.options fields) pl) (((i, e), v) :: ms') :=
        ButLast.suffix hR
      have hRv : Right pr.x pr.src pr.options t (if ms' = [] then pl else .inside) v := by
        have hM := ButLast.at (F := RightM pr.x pr.src o (fields.map (·.1)) (RightF pr.x pr.src pr.options fields)) hRs
        obtain ⟨raw, hraw, hkn⟩ := Option.bind_eq_some_iff.1 hname
        have := hM raw name hraw hkn
        rw [decPF_names] at hfind
        rw [hfind] at this
        exact this _ (rightF_get _ _ _ _ _ _ _ _ hfj)
      have htkn := toks_drop htk2
      have hin : ∀ p', Right pr.x pr.src pr.options t p' v → Fin pr p' p (s.ti + (flattenM s.ti pre).length + 1 + (flatten (s.ti + (flattenM s.ti pre).length + 1) v).length) →
          PostP pr s p' p b (b + (1 + widthF fields)) (s.ti + (flattenM s.ti pre).length + 1 + (flatten (s.ti + (flattenM s.ti pre).length + 1) v).length) path (decP pr.x pr.src pr.options t v blk (off + fo')) := by
        intro p' hRp hfp
        exact PostP.trans (Reach.one hs) (put_get hb) (fun _ _ => rfl) ((ih j n p fo' t h2 hfj p' _ v path (off + fo') blk _ hpre hwv hRp hfp).widen (by omega) (by omega))
      by_cases hms' : ms' = []
      · subst hms'
        rw [if_pos rfl] at hRv
        simp only [flattenM, List.nil_append, List.length_nil, Nat.zero_add] at htkn hfin ⊢
        have hin := hin pl hRv (hfin.member hc hcr1 hcr2 hcp hf (.inl hty) htkn hte)
        have hres : structB pr.x pr.src o (decPF pr.x pr.src pr.options fields) (pre ++ [((i, e), v)]) blk off = decP pr.x pr.src pr.options t v blk (off + fo') := by
          cases hdec : decP pr.x pr.src pr.options t v blk (off + fo') with
          | ok b' => rw [h4 b' hdec]; rfl
          | err i' er b' => rw [h5 (fun b' hb' => by rw [hdec] at hb'; cases hb'), hdec]
          | crash => rw [h5 (fun b' hb' => by rw [hdec] at hb'; cases hb'), hdec]
          | unsup => rw [h5 (fun b' hb' => by rw [hdec] at hb'; cases hb'), hdec]
        rw [hres]
        exact close_obj hc hcr1 hcr2 hcp hf (.inl hty) htkn hte hin
      · rw [if_neg hms'] at hRv
        have hin := hin .inside hRv (fun h => by cases h)
        cases hdec : decP pr.x pr.src pr.options t v blk (off + fo') with
        | err i' er b' =>
          rw [h5 (fun b' hb' => by rw [hdec] at hb'; cases hb'), hdec]
          rw [hdec] at hin; exact hin
        | crash =>
          rw [h5 (fun b' hb' => by rw [hdec] at hb'; cases hb'), hdec]
          rw [hdec] at hin; exact hin
        | unsup =>
          rw [h5 (fun b' hb' => by rw [hdec] at hb'; cases hb'), hdec]
          trivial
        | ok b' =>
          rw [h4 b' hdec]
          rw [hdec] at hin
          obtain ⟨s1, a1, ⟨a6, a2, a3, a4⟩, a5, a7⟩ := hin
          have hchild := ih j n p fo' t h2 hfj .inside _ v path (off + fo') blk _ hpre hwv hRv (fun h => by cases h)
          rw [hdec] at hchild
          obtain ⟨s1, a1, ⟨a6, a2, a3, a4⟩, a5, a7⟩ := hchild
          have hst : step pr s1 = onValEnd pr s1 c := by simp [step, a2, a3, hc]
          simp only [onValEnd, hcp, hf, hty] at hst
          simp only [] at a4 a5 a6
          rw [← a4] at hfin ⊢
          refine PostP.trans ((Reach.one hs).trans (a1.trans (Reach.one hst))) a5 (fun k hk => a6 k (by omega))
            (ihN ms' (by simp at hN; omega) _ path off b' te rest rfl rfl ?_ ?_ hte (get_put a5) a7 hwt (ButLast.tail hRs) hfin)
          · intro q hq
            simp only []
            rw [a6 q.2 (hother q hq)]
            exact hp q hq
          · simp only [a4]
            exact htkn
theorem simP_struct {pr : Prog} {b : Nat} {size : Nat} {fields : List (Bytes × Nat × Ty)} (hr : Rep pr.x pr.frames (.struct size fields) b)
    (ih : ∀ f, pr.frames[b]? = some f → ∀ (j : Nat) (n : Bytes) (p fo : Nat) (t : Ty), f.fields[j]? = some (n, p) → fields[j]? = some (n, fo, t) → SimP pr t p) :
    SimP pr (.struct size fields) b := by
  intro p s v path off blk rest h hwf hR hfin
  have hr' := hr
  obtain ⟨f, hf, hty, hsz, hrf⟩ := hr
  cases v with
  | obj i ms k1 =>
    have hs := step_obj h hf
    have htk := h.toks
    simp only [flatten] at htk
    simp only [onObject, hty] at hs
    simp only [decP]
    by_cases hm : ms = []
    · subst hm
      simp only [List.length_nil, if_true] at hs
      rw [if_pos rfl]
      exact Post.toP (w := (Ty.struct size fields).width) (n := 2) ⟨_, Reach.one hs, rfl, h.si, rfl, put_get h.blk, fun _ _ => rfl, h.dyn⟩ rfl hfin
    · rw [if_neg (by simpa using hm)] at hs
      rw [if_neg hm]
      have htk1 : pr.toks.drop (s.ti + 1) = flattenM (s.ti + 1) ms ++ ⟨.objectEnd, k1, k1 + 1, 0⟩ :: rest := by
        have := toks_drop (t := [_]) (r := flattenM (s.ti + 1) ms ++ ⟨.objectEnd, k1, k1 + 1, 0⟩ :: rest) (by rw [htk]; simp; rfl)
        simpa using this
      cases ho : pr.options with
      | none =>
        refine (Reach.one hs).halts (Halts.one (o := .crash) ?_ (by simp))
        obtain ⟨⟨⟨i', en⟩, v'⟩, ms', rfl⟩ := List.exists_cons_of_ne_nil hm
        simp only [flattenM, List.append_assoc, List.cons_append] at htk1
        rw [step_loop (s := { s with ti := s.ti + 1, dyn := setFieldDests s.p f.fields s.dyn }) h.pc (toks_head htk1) (by simp only []; rw [h.si]; exact hf)]
        simp [dispatch, onKey, hty, ho]
      | some o =>
        simp only []
        have hTe : s.ti + (flatten s.ti (.obj i ms k1)).length = s.ti + 1 + ((flattenM (s.ti + 1) ms).length + 1) := by simp [flatten]; omega
        rw [hTe] at hfin ⊢
        have hloop := simP_structLoop (size := size) hf hty hrf (ih f hf) ho p ms.length ms (Nat.le_refl _)
          { s with ti := s.ti + 1, dyn := setFieldDests s.p f.fields s.dyn } path off blk ⟨.objectEnd, k1, k1 + 1, 0⟩ rest h.pc h.si
          (fun q hq => by
            simp only [setFieldDests_eq]
            rw [if_pos (List.mem_map.2 ⟨q, hq, rfl⟩), h.sp])
          htk1 rfl h.blk (h.dyn.setFields _ _) hwf.2.2.2.2 (by have := hR; simp only [Right] at this; rw [ho] at this; rw [ho]; exact this o rfl) hfin
        rw [ho] at hloop
        refine PostP.trans (Reach.one hs) (put_get h.blk) ?_ hloop
        · intro j hj
          simp only [setFieldDests_eq]
          rw [if_neg]
          intro hc
          obtain ⟨q, hq, hqj⟩ := List.mem_map.1 hc
          have := repFields_pos hrf q hq
          simp only [Ty.width] at hj
          omega
  | arr i es k => exact (sim hr' s _ path off blk rest h).toP rfl hfin
  | null _ _ | bool _ _ _ | num _ _ _ | str _ _ => exact (sim hr' s _ path off blk rest h).toP rfl hfin

/-! ## Pointers and `struct{}` -/

theorem simP_ptr {pr : Prog} {b : Nat} {e : Ty} (hr : Rep pr.x pr.frames (.ptr e) b) (ih : SimP pr e (b + 1)) : SimP pr (.ptr e) b := by
  intro p s v path off blk rest h hwf hR hfin
  have hr' := hr
  obtain ⟨⟨f, hf, hty, -⟩, ⟨c, hc, hcp, hco⟩, hre⟩ := hr
  obtain ⟨c', hc', hct, hcs⟩ := hre.frame
  rw [hc] at hc'; cases hc'
  have hW := W_pos pr.x
  by_cases hv : ∃ i e, v = .null i e
  · obtain ⟨i, e', rfl⟩ := hv
    exact (sim hr' s _ path off blk rest h).toP rfl hfin
  · have hdec : decP pr.x pr.src pr.options (.ptr e) v blk off =
        match blit blk off (seg pr.x.W (.ptr (zeros (e.size pr.x)))) with
          | none => .crash
          | some b => (decP pr.x pr.src pr.options e v (zeros (e.size pr.x)) 0).bindB (putIn b off .deref) := by
      cases v <;> first | rfl | exact absurd ⟨_, _, rfl⟩ hv
    have hR' : e.size pr.x ≠ 0 ∧ p ≠ .inside ∧ (p = .last → Right pr.x pr.src pr.options e .inside v) ∧ (p = .final → Right pr.x pr.src pr.options e .final v) := by
      clear hfin
      cases v with
      | null i k => exact absurd ⟨i, k, rfl⟩ hv
      | _ => simp only [Right] at hR; cases p <;> simp_all
    obtain ⟨hz, hR1, hR2, hR3⟩ := hR'
    rw [hdec]
    have hs := top_ptr_step h hf hty (fun i e hc => hv ⟨i, e, hc⟩)
    rw [if_neg (by rw [Safe.tokOK_wf hwf]; simp)] at hs
    have hp' : ({ s with pc := PC.onPtr } : St).p = .at ⟨path, off⟩ := by simp only [St.p, h.si]; exact h.p
    have hs2 : step pr { s with pc := .onPtr } = onPtr pr { s with pc := .onPtr } := rfl
    simp only [onPtr, hp'] at hs2
    simp only [h.si, hc, hcs, writeSeg_at h.blk] at hs2
    have hseq : ({ s with pc := PC.onPtr } : St) = { ti := s.ti, si := b, pc := .onPtr, dyn := s.dyn, mem := s.mem } := by rw [← h.si]
    rw [hseq] at hs
    cases hbl : blit blk off (seg pr.x.W (.ptr (zeros (e.size pr.x)))) with
    | none =>
      rw [hbl] at hs2
      exact (Reach.one hs).halts (Halts.one (o := .crash) hs2 (by simp))
    | some b1 =>
      rw [hbl] at hs2
      obtain ⟨m1, hm1⟩ := putBlock_total b1 h.blk
      simp only [Option.bind_some, hm1, if_neg hz] at hs2
      have hcell := blit_seg_get hW hbl
      have hder : getBlock b1 [⟨off, .deref⟩] = some (zeros (e.size pr.x)) := by simp [getBlock, hcell, ownedBlock]
      have hpre : Pre pr ({ s with mem := m1, si := b + 1, pc := PC.loop, dyn := upd s.dyn (b + 1) (fun y => { y with dest := .at (Addr.into ⟨path, off⟩ .deref) }) } : St)
          (b + 1) (path ++ [⟨off, .deref⟩]) 0 (zeros (e.size pr.x)) v rest := by
        refine ⟨rfl, rfl, ?_, h.toks, ?_, h.dyn.upd_dest (b + 1) (g := fun y => { y with dest := .at (Addr.into ⟨path, off⟩ .deref) }) rfl rfl⟩
        · have := h.dyn.off (b + 1) c b f hc (by rw [hct]; exact etype_ne e) hcp hf (.inr (.inr (.inl hty)))
          simp [upd, Ptr.add, Addr.into, this, hco]
        · simp only []
          rw [getBlock_append, get_put hm1]; exact hder
      have hreach : Reach pr s _ := (Reach.one hs).trans (Reach.one hs2)
      have hupd : ∀ j, ¬ (b < j ∧ j < b + (Ty.ptr e).width) → upd s.dyn (b + 1) (fun y => { y with dest := .at (Addr.into ⟨path, off⟩ .deref) }) j = s.dyn j := by
        intro j hj
        have : j ≠ b + 1 := by simp only [Ty.width] at hj; have := width_pos e; omega
        simp only [upd, if_neg this]
      simp only []
      cases p with
      | inside => exact absurd rfl hR1
      | last =>
        have hchild := ih .inside _ v _ 0 _ _ hpre hwf (hR2 rfl) (fun h => by cases h)
        refine PostP.into hreach hm1 hupd ?_
        cases hres : decP pr.x pr.src pr.options e v (zeros (e.size pr.x)) 0 with
        | err i er a => rw [hres] at hchild; exact hchild
        | crash => rw [hres] at hchild; exact hchild
        | unsup => trivial
        | ok a =>
          rw [hres] at hchild
          obtain ⟨s1, a1, ⟨a6, a2, a3, a4⟩, a5, a7⟩ := hchild
          have hst : step pr s1 = onValEnd pr s1 c := by simp [step, a2, a3, hc]
          simp only [onValEnd, hcp, hf, hty, decSi, a3] at hst
          rw [if_neg (by omega)] at hst
          exact ⟨_, a1.trans (Reach.one hst), ⟨fun j hj => a6 j (by simp only [Ty.width] at hj; omega), .inr rfl, rfl, a4⟩, a5, a7⟩
      | final =>
        obtain ⟨f1, f2⟩ := hfin rfl
        have hcr1 : c.type ≠ .mapRecur := by rw [hct]; exact etype_ne' e
        have hcr2 : c.type ≠ .structRecur := by rw [hct]; exact etype_ne e
        have hchild := ih .final _ v _ 0 _ _ hpre hwf (hR3 rfl) (fun _ => ⟨.link hc hcr1 hcr2 hcp hf (.inr (.inr ⟨hty, rfl⟩)) f1, f2⟩)
        refine PostP.into hreach hm1 hupd ?_
        cases hres : decP pr.x pr.src pr.options e v (zeros (e.size pr.x)) 0 with
        | err i er a => rw [hres] at hchild; exact hchild
        | crash => rw [hres] at hchild; exact hchild
        | unsup => trivial
        | ok a =>
          rw [hres] at hchild
          obtain ⟨s1, a1, ⟨a6, a2⟩, a5, a7⟩ := hchild
          exact ⟨s1, a1, ⟨fun j hj => a6 j (by simp only [Ty.width] at hj; omega), a2⟩, a5, a7⟩

theorem simP_emptyStruct {pr : Prog} {b : Nat} (hr : Rep pr.x pr.frames .emptyStruct b) : SimP pr .emptyStruct b := by
  intro p s v path off blk rest h hwf hR hfin
  have hr' := hr
  obtain ⟨f, hf, hty, -⟩ := hr
  cases v with
  | obj i ms k =>
    simp only [Right] at hR
    subst hR
    obtain ⟨f1, f2⟩ := hfin rfl
    have hs := step_obj h hf
    simp only [onObject, hty] at hs
    have htk := h.toks
    simp only [flatten] at htk
    have htk2 : pr.toks.drop (s.ti + 1 + (flattenM (s.ti + 1) ms).length) = ⟨.objectEnd, k, k + 1, 0⟩ :: rest := by
      have := toks_drop (t := _ :: flattenM (s.ti + 1) ms) (r := ⟨.objectEnd, k, k + 1, 0⟩ :: rest) (by rw [htk]; simp; rfl)
      rw [← this]; congr 1; simp; omega
    obtain ⟨s2, k1, k2, k3, k4, k5⟩ := drain (pr := pr) _ { s with ti := s.ti + 1 + (flattenM (s.ti + 1) ms).length, pc := .valEnd } (by simp only []; rw [h.si]; exact f1) rfl htk2
      (fun t ht => by
        rcases List.mem_cons.1 ht with rfl | ht
        · rfl
        · refine f2 t ?_
          rw [toks_drop h.toks]; exact ht) h.dyn
    exact ⟨s2, (Reach.one hs).trans k1, ⟨fun j _ => by rw [k5], k2, k3⟩, by rw [k4]; exact put_get h.blk, by rw [k5]; exact h.dyn⟩
  | arr i es k => exact (sim hr' s _ path off blk rest h).toP rfl hfin
  | null _ _ | bool _ _ _ | num _ _ _ | str _ _ => exact (sim hr' s _ path off blk rest h).toP rfl hfin

/-! ## All types -/

mutual
/-- The machine follows the reading, for every type. -/
theorem simP {pr : Prog} : ∀ {ty : Ty} {b : Nat}, Rep pr.x pr.frames ty b → SimP pr ty b
  | .any, b, h => simP_flat h rfl
  | .number, b, h => simP_flat h rfl
  | .scalar _, b, h => simP_flat h rfl
  | .quoted _, b, h => simP_flat h rfl
  | .jsonU _ _ _, b, h => simP_flat h rfl
  | .textU _ _ _, b, h => simP_flat h rfl
  | .array0, b, h => simP_flat h rfl
  | .array n e, b, h => simP_array h (simP (ty := e) h.2.2.2)
  | .slice e, b, h => simP_slice h (simP (ty := e) h.2.2)
  | .sliceOf k, b, h => simP_flat h rfl
  | .sliceES, b, h => simP_flat h rfl
  | .mapSS, b, h => simP_flat h rfl
  | .map k e, b, h => simP_map h (simP (ty := e) h.2.2.2)
  | .struct size fields, b, h => simP_struct h (fun f hf => by
      obtain ⟨f', hf', -, -, hrf⟩ := h
      rw [hf] at hf'; cases hf'
      exact simPF (fields := fields) hrf)
  | .emptyStruct, b, h => simP_emptyStruct h
  | .ptr e, b, h => simP_ptr h (simP (ty := e) h.2.2)
theorem simPF {pr : Prog} : ∀ {fields : List (Bytes × Nat × Ty)} {b pos : Nat} {tbl : List (Bytes × Nat)},
    RepFields pr.x pr.frames b fields pos tbl →
    ∀ (j : Nat) (n : Bytes) (p fo : Nat) (t : Ty), tbl[j]? = some (n, p) → fields[j]? = some (n, fo, t) → SimP pr t p
  | [], b, pos, tbl, h, j, n, p, fo, t, h1, h2 => by simp at h2
  | (n0, o0, t0) :: fs, b, pos, tbl, h, 0, n, p, fo, t, h1, h2 => by
    simp only [RepFields] at h
    obtain ⟨tbl', rfl, -, hr, -⟩ := h
    simp only [List.getElem?_cons_zero, Option.some.injEq, Prod.mk.injEq] at h1 h2
    obtain ⟨-, rfl⟩ := h1
    obtain ⟨-, -, rfl⟩ := h2
    exact simP (ty := t0) hr
  | (n0, o0, t0) :: fs, b, pos, tbl, h, j + 1, n, p, fo, t, h1, h2 => by
    simp only [RepFields] at h
    obtain ⟨tbl', rfl, -, -, h'⟩ := h
    simp only [List.getElem?_cons_succ] at h1 h2
    exact simPF (fields := fs) h' j n p fo t h1 h2
end

end Verif.Proof.Sim

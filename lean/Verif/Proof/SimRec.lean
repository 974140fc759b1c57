import Verif.Proof.SimStruct
import Verif.Spec.Recursive
/-!
# The token loop follows the type-directed reading: recursive structs
-/
namespace Verif.Proof.Sim
open Verif.Model Verif.Big Verif.Spec Verif.Proof.Mem Verif.Proof.Any Verif.Proof.Fields

/-- Any change to the frame of a recursive struct keeps the invariant. -/
theorem DynOK.upd_rec {fr : List Frame} {d : Nat → Dyn} (h : DynOK fr d) {r : Nat} {f : Frame} (hf : fr[r]? = some f) (hty : f.type = .structRecur)
    (g : Dyn → Dyn) : DynOK fr (upd d r g) := by
  constructor
  · intro j c' p g' hc' hn' hp' hg' ht'
    by_cases hj : j = r
    · subst hj; rw [hf] at hc'; cases hc'; exact absurd hty hn'
    · simp only [upd, if_neg hj]; exact h.off j c' p g' hc' hn' hp' hg' ht'
  · intro j c' hc' hn' hp'
    by_cases hj : j = r
    · subst hj; rw [hf] at hc'; cases hc'; exact absurd hty hn'
    · simp only [upd, if_neg hj]; exact h.root j c' hc' hn' hp'
  · intro j hnr
    by_cases hj : j = r
    · subst hj; exact absurd hty (hnr f hf)
    · simp only [upd, if_neg hj]; exact h.rs j hnr

theorem DynOK.of_rec {fr : List Frame} {d d' : Nat → Dyn} (h : DynOK fr d) {r : Nat} {f : Frame} (hf : fr[r]? = some f) (hty : f.type = .structRecur)
    (hd : ∀ j, j ≠ r → d' j = d j) : DynOK fr d' := by
  have : d' = upd d r fun _ => d' r := by
    funext j
    by_cases hj : j = r
    · subst hj; simp [upd]
    · simp only [upd, if_neg hj, hd j hj]
  rw [this]
  exact h.upd_rec hf hty _

/-- `PostG` with any final label, any set of frames that stay as they are, and something more about the final state. -/
def PostQ (pr : Prog) (s : St) (pc : PC) (si : Nat) (K : Nat → Prop) (E : St → Prop) (path : List Step) (n : Nat) : Res → Prop
  | .ok blk' => ∃ s', Reach pr s s' ∧ s'.pc = pc ∧ s'.si = si ∧ s'.ti = s.ti + n ∧ putBlock s.mem path blk' = some s'.mem ∧
      (∀ j, K j → s'.dyn j = s.dyn j) ∧ DynOK pr.frames s'.dyn ∧ E s'
  | .err i e blk' => ∃ s', Halts pr s (.err i e s') ∧ putBlock s.mem path blk' = some s'.mem ∧ DynOK pr.frames s'.dyn
  | .crash => Halts pr s .crash
  | .unsup => True

theorem PostQ.trans {pr : Prog} {s s1 : St} {pc : PC} {si : Nat} {K : Nat → Prop} {E : St → Prop} {path : List Step} {n n1 : Nat} {r : Res} {b1 : Block}
    (h : Reach pr s s1) (hn : s1.ti + n1 = s.ti + n) (hm : putBlock s.mem path b1 = some s1.mem)
    (hd : ∀ j, K j → s1.dyn j = s.dyn j) (hr : PostQ pr s1 pc si K E path n1 r) : PostQ pr s pc si K E path n r := by
  cases r with
  | ok blk' =>
    obtain ⟨s', h1, h2, h3, h4, h5, h6, h7, h8⟩ := hr
    exact ⟨s', h.trans h1, h2, h3, by omega, by rw [← h5, put_put hm], fun j hj => by rw [h6 j hj, hd j hj], h7, h8⟩
  | err i e blk' =>
    obtain ⟨s', h1, h2, h3⟩ := hr
    exact ⟨s', h.halts h1, by rw [← h2, put_put hm], h3⟩
  | crash => exact h.halts hr
  | unsup => trivial

/-- More steps at the end. -/
theorem PostQ.then {pr : Prog} {s : St} {pc pc' : PC} {si si' : Nat} {K K' : Nat → Prop} {E E' : St → Prop} {path : List Step} {n n' : Nat} {r : Res}
    (hr : PostQ pr s pc si K E path n r)
    (h : ∀ s1, Reach pr s s1 → s1.pc = pc → s1.si = si → s1.ti = s.ti + n → (∀ j, K j → s1.dyn j = s.dyn j) → DynOK pr.frames s1.dyn → E s1 →
      ∃ s', Reach pr s1 s' ∧ s'.pc = pc' ∧ s'.si = si' ∧ s'.ti = s.ti + n' ∧ s'.mem = s1.mem ∧ (∀ j, K' j → s'.dyn j = s.dyn j) ∧ DynOK pr.frames s'.dyn ∧ E' s') :
    PostQ pr s pc' si' K' E' path n' r := by
  cases r with
  | ok blk' =>
    obtain ⟨s1, h1, h2, h3, h4, h5, h6, h7, h8⟩ := hr
    obtain ⟨s', k1, k2, k3, k4, k5, k6, k7, k8⟩ := h s1 h1 h2 h3 h4 h6 h7 h8
    exact ⟨s', h1.trans k1, k2, k3, k4, by rw [k5]; exact h5, k6, k7, k8⟩
  | err i e blk' => exact hr
  | crash => exact hr
  | unsup => trivial

theorem PostQ.into {pr : Prog} {s s1 : St} {pc : PC} {si : Nat} {K : Nat → Prop} {E : St → Prop} {path : List Step} {n n1 : Nat} {r : Res} {b1 : Block} {off : Nat} {sel : Sel}
    (h : Reach pr s s1) (hn : s1.ti + n1 = s.ti + n) (hm : putBlock s.mem path b1 = some s1.mem)
    (hd : ∀ j, K j → s1.dyn j = s.dyn j)
    (hr : PostQ pr s1 pc si K E (path ++ [⟨off, sel⟩]) n1 r) : PostQ pr s pc si K E path n (r.bindB (putIn b1 off sel)) := by
  have hb1 := get_put hm
  have key : ∀ a m', putBlock s1.mem (path ++ [⟨off, sel⟩]) a = some m' → ∃ b', putIn b1 off sel a = some b' ∧ putBlock s.mem path b' = some m' := by
    intro a m' ha
    rw [putBlock_append hb1] at ha
    cases hp : putBlock b1 [⟨off, sel⟩] a with
    | none => rw [hp] at ha; cases ha
    | some b' =>
      rw [hp] at ha
      exact ⟨b', hp, by rw [← put_put hm]; exact ha⟩
  cases r with
  | ok blk' =>
    obtain ⟨s', h1, h2, h3, h4, h5, h6, h7, h8⟩ := hr
    obtain ⟨b', hb', hm'⟩ := key _ _ h5
    simp only [Res.bindB, hb']
    exact ⟨s', h.trans h1, h2, h3, by omega, hm', fun j hj => by rw [h6 j hj, hd j hj], h7, h8⟩
  | err i e blk' =>
    obtain ⟨s', h1, h2, h3⟩ := hr
    obtain ⟨b', hb', hm'⟩ := key _ _ h2
    simp only [Res.bindB, hb']
    exact ⟨s', h.halts h1, hm', h3⟩
  | crash => exact h.halts hr
  | unsup => trivial

theorem postQ_of {pr : Prog} {s : St} {b w : Nat} {path : List Step} {n : Nat} {r : Res} (h : Post pr s b w path n r) :
    PostQ pr s .valEnd b (fun j => ¬ (b < j ∧ j < b + w)) (fun _ => True) path n r := by
  cases r with
  | ok blk' => obtain ⟨s', h1, h2, h3, h4, h5, h6, h7⟩ := h; exact ⟨s', h1, h2, h3, h4, h5, h6, h7, trivial⟩
  | _ => exact h

/-! ## The frames of a recursive struct -/

theorem rwidth_pos (t : RField) : 0 < t.width := by cases t <;> simp only [RField.width] <;> first | exact width_pos _ | omega

theorem repR_names {x : Ext} {fr : List Frame} {r size : Nat} : ∀ {fs : RFields} {pos : Nat} {tbl : List (Bytes × Nat)},
    RepR x fr r size fs pos tbl → tbl.map (·.1) = fs.map (·.1)
  | [], pos, tbl, h => by simp only [RepR] at h; subst h; rfl
  | (n, o, t) :: fs, pos, tbl, h => by
    simp only [RepR] at h
    obtain ⟨tbl', rfl, -, -, h'⟩ := h
    simp [repR_names h']

theorem repR_pos {x : Ext} {fr : List Frame} {r size : Nat} : ∀ {fs : RFields} {pos : Nat} {tbl : List (Bytes × Nat)},
    RepR x fr r size fs pos tbl → ∀ q ∈ tbl, pos ≤ q.2 ∧ q.2 < pos + widthR fs
  | [], pos, tbl, h => by simp only [RepR] at h; subst h; simp
  | (n, o, t) :: fs, pos, tbl, h => by
    simp only [RepR] at h
    obtain ⟨tbl', rfl, -, -, h'⟩ := h
    intro q hq
    have hw := rwidth_pos t
    simp only [widthR]
    rcases List.mem_cons.1 hq with rfl | hq
    · exact ⟨Nat.le_refl _, by simp only []; omega⟩
    · have := repR_pos h' q hq
      omega

theorem repR_get {x : Ext} {fr : List Frame} {r size : Nat} : ∀ {fs : RFields} {pos : Nat} {tbl : List (Bytes × Nat)},
    RepR x fr r size fs pos tbl → ∀ {j : Nat} {n : Bytes} {p : Nat}, tbl[j]? = some (n, p) →
      ∃ fo t, fs[j]? = some (n, fo, t) ∧ Linked fr r p (fun c => c.offset = fo) ∧ t.Rep x fr r size p ∧ pos ≤ p ∧ p + t.width ≤ pos + widthR fs ∧
        ∀ q ∈ tbl, ¬ (p < q.2 ∧ q.2 < p + t.width)
  | [], pos, tbl, h, j, n, p, hj => by simp only [RepR] at h; subst h; simp at hj
  | (n0, o0, t0) :: fs, pos, tbl, h, 0, n, p, hj => by
    simp only [RepR] at h
    obtain ⟨tbl', rfl, hl, hr, h'⟩ := h
    simp only [List.getElem?_cons_zero, Option.some.injEq, Prod.mk.injEq] at hj
    obtain ⟨rfl, rfl⟩ := hj
    refine ⟨o0, t0, rfl, hl, hr, Nat.le_refl _, by simp only [widthR]; omega, ?_⟩
    intro q hq
    rcases List.mem_cons.1 hq with rfl | hq
    · simp
    · have := repR_pos h' q hq
      omega
  | (n0, o0, t0) :: fs, pos, tbl, h, j + 1, n, p, hj => by
    simp only [RepR] at h
    obtain ⟨tbl', rfl, hl, hr, h'⟩ := h
    simp only [List.getElem?_cons_succ] at hj
    obtain ⟨fo, t, h1, h2, h3, h4, h5, h6⟩ := repR_get h' hj
    refine ⟨fo, t, h1, h2, h3, by omega, by simp only [widthR]; omega, ?_⟩
    intro q hq
    rcases List.mem_cons.1 hq with rfl | hq
    · simp only []; have := rwidth_pos t0; omega
    · exact h6 q hq

theorem decRF_get (x : Ext) (src : Bytes) (o : Option Options) (size : Nat) (g : JVal → Block → Nat → Res) (fs : RFields) (j : Nat) :
    (decRF x src o size g fs)[j]? = (fs[j]?).map fun f => (f.1, f.2.1, fieldB x src o size g f.2.2) := by
  simp [decRF]

theorem decRF_names (x : Ext) (src : Bytes) (o : Option Options) (size : Nat) (g : JVal → Block → Nat → Res) (fs : RFields) :
    (decRF x src o size g fs).map (·.1) = fs.map (·.1) := by
  simp only [decRF, List.map_map]; rfl

/-- The recursive struct at frame `r`. -/
structure RecAt (pr : Prog) (size : Nat) (fs : RFields) (r : Nat) (f : Frame) : Prop where
  hf : pr.frames[r]? = some f
  hty : f.type = .structRecur
  hsz : f.size = size
  hrf : RepR pr.x pr.frames r size fs (r + 1) f.fields

/-- The frames outside the fields of the struct. -/
def K₀ (r : Nat) (fs : RFields) (j : Nat) : Prop := ¬ (r < j ∧ j < r + 1 + widthR fs)

/-- The frames outside the struct. -/
def K₁ (r : Nat) (fs : RFields) (j : Nat) : Prop := ¬ (r ≤ j ∧ j < r + 1 + widthR fs)

theorem K₀_of {r : Nat} {fs : RFields} {j : Nat} (h : K₁ r fs j) : K₀ r fs j := by unfold K₀ K₁ at *; omega

theorem K₀_iff {r : Nat} {fs : RFields} {j : Nat} : K₀ r fs j ↔ j = r ∨ K₁ r fs j := by unfold K₀ K₁; omega

theorem RecAt.fields_in {pr : Prog} {size : Nat} {fs : RFields} {r : Nat} {f : Frame} (h : RecAt pr size fs r f) {q : Bytes × Nat} (hq : q ∈ f.fields) :
    r < q.2 ∧ q.2 < r + 1 + widthR fs := by
  have := repR_pos h.hrf q hq
  omega

theorem RecAt.set_out {pr : Prog} {size : Nat} {fs : RFields} {r : Nat} {f : Frame} (h : RecAt pr size fs r f) (p : Ptr) (d : Nat → Dyn) {j : Nat}
    (hj : K₀ r fs j) : setFieldDests p f.fields d j = d j := by
  rw [setFieldDests_eq, if_neg]
  intro hc
  obtain ⟨q, hq, hqj⟩ := List.mem_map.1 hc
  have := h.fields_in hq
  unfold K₀ at hj
  omega

theorem set_in (p : Ptr) (fs : List (Bytes × Nat)) (d : Nat → Dyn) {q : Bytes × Nat} (hq : q ∈ fs) : (setFieldDests p fs d q.2).dest = p := by
  rw [setFieldDests_eq, if_pos (List.mem_map.2 ⟨q, hq, rfl⟩)]

/-- Popping what was pushed. -/
theorem RecAt.pop {pr : Prog} {size : Nat} {fs : RFields} {r : Nat} {f : Frame} (h : RecAt pr size fs r f) {d : Nat → Dyn} {d0 : Dyn} {p : Nat}
    (hlen : (d r).len = d0.len) (hd : DynOK pr.frames d) :
    (popRec pr d r f.fields ⟨d0.dest, d0.offset, p, pr.epoch⟩ d0.rstack) r = d0 ∧
    (∀ j, K₁ r fs j → (popRec pr d r f.fields ⟨d0.dest, d0.offset, p, pr.epoch⟩ d0.rstack) j = d j) ∧
    (∀ q ∈ f.fields, ((popRec pr d r f.fields ⟨d0.dest, d0.offset, p, pr.epoch⟩ d0.rstack) q.2).dest = d0.dest) ∧
    DynOK pr.frames (popRec pr d r f.fields ⟨d0.dest, d0.offset, p, pr.epoch⟩ d0.rstack) := by
  have hde : (⟨d0.dest, d0.offset, p, pr.epoch⟩ : RecFrame).destAt pr.epoch = d0.dest := by simp [RecFrame.destAt]
  simp only [popRec, hde]
  refine ⟨?_, ?_, ?_, ?_⟩
  · rw [h.set_out _ _ (K₀_iff.2 (.inl rfl))]
    simp only [upd, if_pos, hlen]
  · intro j hj
    rw [h.set_out _ _ (K₀_of hj)]
    have : j ≠ r := by unfold K₁ at hj; omega
    simp only [upd, if_neg this]
  · intro q hq; exact set_in _ _ _ hq
  · exact (hd.upd_rec h.hf h.hty _).setFields _ _

end Verif.Proof.Sim

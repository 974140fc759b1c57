import Verif.Big.Rep
import Verif.Proof.Run
import Verif.Proof.Mem
import Verif.Proof.Any
/-!
# The token loop follows the type-directed reading: set-up and scalars
-/
namespace Verif.Proof.Sim
open Verif.Model Verif.Big Verif.Proof.Mem Verif.Proof.Any

/-- Offsets of the root, of struct fields, map values and pointees are the static ones (those of recursive structs excepted), and the recursion stacks of frames that are no recursive structs are empty. -/
structure DynOK (fr : List Frame) (d : Nat → Dyn) : Prop where
  off : ∀ i c p g, fr[i]? = some c → c.type ≠ .structRecur → c.parent = some p → fr[p]? = some g → (g.type = .struct ∨ g.type = .map ∨ g.type = .ptr ∨ g.type = .structRecur) →
    (d i).offset = c.offset
  root : ∀ i c, fr[i]? = some c → c.type ≠ .structRecur → c.parent = none → (d i).offset = c.offset
  rs : ∀ i, (∀ f, fr[i]? = some f → f.type ≠ .structRecur) → (d i).rstack = []

/-- Any change to an element frame of an array or slice is harmless. -/
theorem DynOK.upd_elem {fr : List Frame} {d : Nat → Dyn} (h : DynOK fr d) {i b : Nat} {c f : Frame} (hc : fr[i]? = some c)
    (hp : c.parent = some b) (hf : fr[b]? = some f) (ht : f.type = .array ∨ f.type = .slice) {g : Dyn → Dyn}
    (hg : (g (d i)).rstack = (d i).rstack) : DynOK fr (upd d i g) := by
  constructor
  · intro j c' p g' hc' hn' hp' hg' ht'
    by_cases hj : j = i
    · subst hj
      rw [hc] at hc'; cases hc'
      rw [hp] at hp'; cases hp'
      rw [hf] at hg'; cases hg'
      rcases ht with ht | ht <;> rw [ht] at ht' <;> simp at ht'
    · simp only [upd, if_neg hj]
      exact h.off j c' p g' hc' hn' hp' hg' ht'
  · intro j c' hc' hn' hp'
    by_cases hj : j = i
    · subst hj
      rw [hc] at hc'; cases hc'
      rw [hp] at hp'; cases hp'
    · simp only [upd, if_neg hj]
      exact h.root j c' hc' hn' hp'
  · intro j hnr
    by_cases hj : j = i
    · subst hj; simp only [upd, if_pos]; rw [hg]; exact h.rs j hnr
    · simp only [upd, if_neg hj]; exact h.rs j hnr

/-- So is a change of a destination. -/
theorem DynOK.upd_dest {fr : List Frame} {d : Nat → Dyn} (h : DynOK fr d) (i : Nat) {g : Dyn → Dyn}
    (ho : (g (d i)).offset = (d i).offset) (hr : (g (d i)).rstack = (d i).rstack) : DynOK fr (upd d i g) := by
  constructor
  · intro j c' p g' hc' hn' hp' hg' ht'
    by_cases hj : j = i
    · subst hj; simp only [upd, if_pos]; rw [ho]; exact h.off j c' p g' hc' hn' hp' hg' ht'
    · simp only [upd, if_neg hj]
      exact h.off j c' p g' hc' hn' hp' hg' ht'
  · intro j c' hc' hn' hp'
    by_cases hj : j = i
    · subst hj; simp only [upd, if_pos]; rw [ho]; exact h.root j c' hc' hn' hp'
    · simp only [upd, if_neg hj]
      exact h.root j c' hc' hn' hp'
  · intro j hnr
    by_cases hj : j = i
    · subst hj; simp only [upd, if_pos]; rw [hr]; exact h.rs j hnr
    · simp only [upd, if_neg hj]; exact h.rs j hnr

theorem setFieldDests_eq (p : Ptr) : ∀ (fs : List (Bytes × Nat)) (d : Nat → Dyn) (i : Nat),
    setFieldDests p fs d i = if i ∈ fs.map (·.2) then { d i with dest := p } else d i := by
  intro fs
  induction fs with
  | nil => intro d i; simp [setFieldDests]
  | cons f fs ih =>
    intro d i
    simp only [setFieldDests, ih, List.map_cons, List.mem_cons]
    by_cases h1 : i = f.2
    · subst h1; simp [upd]
    · by_cases h2 : i ∈ fs.map (·.2)
      · simp only [h2, if_pos, or_true, upd, if_neg h1]
      · simp only [h1, h2, or_self, if_neg, upd, not_false_eq_true]

theorem DynOK.setFields {fr : List Frame} {d : Nat → Dyn} (h : DynOK fr d) (p : Ptr) (fs : List (Bytes × Nat)) : DynOK fr (setFieldDests p fs d) := by
  constructor
  · intro j c' q g' hc' hn' hp' hg' ht'
    rw [setFieldDests_eq]
    have := h.off j c' q g' hc' hn' hp' hg' ht'
    split <;> exact this
  · intro j c' hc' hn' hp'
    rw [setFieldDests_eq]
    have := h.root j c' hc' hn' hp'
    split <;> exact this
  · intro j hnr
    rw [setFieldDests_eq]
    have := h.rs j hnr
    split <;> exact this

/-- A state at the head of the loop, about to decode `v` with frame `b` into offset `off` of the block `blk` at `path`. -/
structure Pre (pr : Prog) (s : St) (b : Nat) (path : List Step) (off : Nat) (blk : Block) (v : JVal) (rest : List Token) : Prop where
  pc : s.pc = .loop
  si : s.si = b
  p : (s.dyn b).dest.add (s.dyn b).offset = .at ⟨path, off⟩
  toks : pr.toks.drop s.ti = flatten s.ti v ++ rest
  blk : getBlock s.mem path = some blk
  dyn : DynOK pr.frames s.dyn

/-- What the machine does from a state when the big-step outcome is given. `w` bounds the frames that may change. -/
def Post (pr : Prog) (s : St) (b w : Nat) (path : List Step) (n : Nat) : Res → Prop
  | .ok blk' => ∃ s', Reach pr s s' ∧ s'.pc = .valEnd ∧ s'.si = b ∧ s'.ti = s.ti + n ∧ putBlock s.mem path blk' = some s'.mem ∧
      (∀ j, ¬ (b < j ∧ j < b + w) → s'.dyn j = s.dyn j) ∧ DynOK pr.frames s'.dyn
  | .err i e blk' => ∃ s', Halts pr s (.err i e s') ∧ putBlock s.mem path blk' = some s'.mem ∧ DynOK pr.frames s'.dyn
  | .crash => Halts pr s .crash
  | .unsup => True

/-- Prefixing steps that stay within the block. -/
theorem Post.trans {pr : Prog} {s s1 : St} {b w : Nat} {path : List Step} {n n1 : Nat} {r : Res} {b1 : Block}
    (h : Reach pr s s1) (hn : s1.ti + n1 = s.ti + n) (hm : putBlock s.mem path b1 = some s1.mem)
    (hd : ∀ j, ¬ (b < j ∧ j < b + w) → s1.dyn j = s.dyn j) (hr : Post pr s1 b w path n1 r) : Post pr s b w path n r := by
  cases r with
  | ok blk' =>
    obtain ⟨s', h1, h2, h3, h4, h5, h6, h7⟩ := hr
    exact ⟨s', h.trans h1, h2, h3, by omega, by rw [← h5, put_put hm], fun j hj => by rw [h6 j hj, hd j hj], h7⟩
  | err i e blk' =>
    obtain ⟨s', h1, h2, h3⟩ := hr
    exact ⟨s', h.halts h1, by rw [← h2, put_put hm], h3⟩
  | crash => exact h.halts hr
  | unsup => trivial

/-- Widening the range of frames. -/
theorem Post.widen {pr : Prog} {s : St} {b w w' : Nat} {path : List Step} {n : Nat} {r : Res} (h : w ≤ w')
    (hr : Post pr s b w path n r) : Post pr s b w' path n r := by
  cases r with
  | ok blk' =>
    obtain ⟨s', h1, h2, h3, h4, h5, h6, h7⟩ := hr
    exact ⟨s', h1, h2, h3, h4, h5, fun j hj => h6 j (by omega), h7⟩
  | err i e blk' => exact hr
  | crash => exact hr
  | unsup => trivial

/-- Memory owned by a cell of the block: what happens there happens to the block. -/
theorem Post.into {pr : Prog} {s s1 : St} {b w : Nat} {path : List Step} {n n1 : Nat} {r : Res} {b1 : Block} {off : Nat} {sel : Sel}
    (h : Reach pr s s1) (hn : s1.ti + n1 = s.ti + n) (hm : putBlock s.mem path b1 = some s1.mem)
    (hd : ∀ j, ¬ (b < j ∧ j < b + w) → s1.dyn j = s.dyn j)
    (hr : Post pr s1 b w (path ++ [⟨off, sel⟩]) n1 r) : Post pr s b w path n (r.bindB (putIn b1 off sel)) := by
  have hb1 := get_put hm
  have key : ∀ a m', putBlock s1.mem (path ++ [⟨off, sel⟩]) a = some m' → ∃ b', putIn b1 off sel a = some b' ∧ putBlock s.mem path b' = some m' := by
    intro a m' ha
    rw [putBlock_append hb1] at ha
    cases hp : putBlock b1 [⟨off, sel⟩] a with
    | none => rw [hp] at ha; cases ha
    | some b' =>
      rw [hp] at ha
      exact ⟨b', hp, by rw [← put_put hm]; exact ha⟩
  cases r with
  | ok blk' =>
    obtain ⟨s', h1, h2, h3, h4, h5, h6, h7⟩ := hr
    obtain ⟨b', hb', hm'⟩ := key _ _ h5
    simp only [Res.bindB, hb']
    exact ⟨s', h.trans h1, h2, h3, by omega, hm', fun j hj => by rw [h6 j hj, hd j hj], h7⟩
  | err i e blk' =>
    obtain ⟨s', h1, h2, h3⟩ := hr
    obtain ⟨b', hb', hm'⟩ := key _ _ h2
    simp only [Res.bindB, hb']
    exact ⟨s', h.halts h1, hm', h3⟩
  | crash => exact h.halts hr
  | unsup => trivial

/-- The simulation statement for a type at a frame. -/
def SimAt (pr : Prog) (ty : Ty) (b : Nat) : Prop :=
  ∀ s v path off blk rest, Pre pr s b path off blk v rest →
    Post pr s b ty.width path (flatten s.ti v).length (dec pr.x pr.src pr.options ty v blk off)

theorem toks_head {α : Type} {l : List α} {i : Nat} {t : α} {r : List α} (h : l.drop i = t :: r) : l[i]? = some t := by
  have := congrArg (fun l => l[0]?) h
  simpa using this

theorem toks_drop {α : Type} {l : List α} {i : Nat} {t r : List α} (h : l.drop i = t ++ r) : l.drop (i + t.length) = r := by
  rw [← List.drop_drop, h, List.drop_left]

theorem step_loop {pr : Prog} {s : St} {t : Token} {f : Frame} (h : s.pc = .loop) (ht : pr.toks[s.ti]? = some t)
    (hf : pr.frames[s.si]? = some f) : step pr s = dispatch pr s f t := by
  simp [step, h, ht, hf]

/-- Scalar documents. -/
def isLeaf : JVal → Bool
  | .arr _ _ _ | .obj _ _ _ => false
  | _ => true

theorem flatten_leaf {v : JVal} (hv : isLeaf v = true) (ti : Nat) : ∃ t, flatten ti v = [t] ∧ t.index = v.index ∧
    ∀ pr s f, dispatch pr s f t = exec pr s f t (leaf pr.x pr.src f.type v) := by
  cases v with
  | null i e => exact ⟨_, rfl, rfl, fun _ _ _ => rfl⟩
  | bool b i e => cases b <;> exact ⟨_, rfl, rfl, fun _ _ _ => rfl⟩
  | num b i e =>
    cases b <;> refine ⟨_, rfl, rfl, fun pr s f => ?_⟩ <;> simp only [dispatch, leaf] <;>
      simp <;> cases slice pr.src i e <;> rfl
  | str i e =>
    refine ⟨_, rfl, rfl, fun pr s f => ?_⟩
    simp only [dispatch, leaf]
    cases slice pr.src (i + 1) (e - 1) <;> rfl
  | arr _ _ _ => cases hv
  | obj _ _ _ => cases hv

/-- Execution of an action agrees with its effect on the block. -/
theorem sim_exec {pr : Prog} {s : St} {b w : Nat} {path : List Step} {off : Nat} {blk : Block} {f : Frame} {t : Token} {act : Act}
    {rt : Option TypeId} {size : Nat} {impl : Bool} {idx : Nat}
    (hsi : s.si = b) (hp : (s.dyn b).dest.add (s.dyn b).offset = .at ⟨path, off⟩) (hb : getBlock s.mem path = some blk)
    (hd : DynOK pr.frames s.dyn) (hidx : t.index = idx)
    (hstep : step pr s = exec pr s f t act)
    (htext : ∀ x, act = .text x → f.rtype = rt ∧ f.size = size ∧ f.ptrImpl = impl) :
    Post pr s b w path 1 (execB pr.x rt size impl blk off idx act) := by
  have hp' : s.p = .at ⟨path, off⟩ := by simp only [St.p, hsi]; exact hp
  subst hidx
  cases act with
  | store n c =>
    simp only [exec, hp', writeSeg_at hb] at hstep
    simp only [execB]
    cases hbl : blit blk off (seg n c) with
    | none => rw [hbl] at hstep; exact Halts.one hstep (by simp)
    | some b' =>
      rw [hbl] at hstep
      obtain ⟨m', hm⟩ := putBlock_total b' hb
      simp only [Option.bind_some, hm] at hstep
      exact ⟨_, Reach.one hstep, rfl, hsi, rfl, hm, fun _ _ => rfl, hd⟩
  | clear n =>
    simp only [exec, hp', writeSeg_at hb] at hstep
    simp only [execB]
    cases hbl : blit blk off (zeros n) with
    | none => rw [hbl] at hstep; exact Halts.one hstep (by simp)
    | some b' =>
      rw [hbl] at hstep
      obtain ⟨m', hm⟩ := putBlock_total b' hb
      simp only [Option.bind_some, hm] at hstep
      exact ⟨_, Reach.one hstep, rfl, hsi, rfl, hm, fun _ _ => rfl, hd⟩
  | nop =>
    simp only [exec] at hstep
    exact ⟨_, Reach.one hstep, rfl, hsi, rfl, put_get hb, fun _ _ => rfl, hd⟩
  | text tx =>
    obtain ⟨h1, h2, h3⟩ := htext tx rfl
    simp only [exec, hp', h1, h2, h3, readSeg_at hb] at hstep
    simp only [execB]
    cases impl with
    | false => exact Halts.one hstep (by simp)
    | true =>
      cases rt with
      | none => exact Halts.one hstep (by simp)
      | some rt =>
        simp only [] at hstep ⊢
        by_cases hle : off + size ≤ blk.length
        · rw [if_pos hle]
          rw [if_pos hle] at hstep
          simp only [writeSeg_at hb] at hstep
          simp only [callB]
          cases hbl : blit blk off (fit size (pr.x.unmarshalText rt (List.take size (List.drop off blk)) tx).1) with
          | none => rw [hbl] at hstep; exact Halts.one hstep (by simp)
          | some b' =>
            rw [hbl] at hstep
            obtain ⟨m', hm⟩ := putBlock_total b' hb
            simp only [Option.bind_some, hm] at hstep
            simp only []
            cases he : (pr.x.unmarshalText rt (List.take size (List.drop off blk)) tx).2 with
            | none =>
              rw [he] at hstep
              exact ⟨_, Reach.one hstep, rfl, hsi, rfl, hm, fun _ _ => rfl, hd⟩
            | some e =>
              rw [he] at hstep
              exact ⟨_, Halts.one hstep (by simp), hm, hd⟩
        · rw [if_neg hle]
          rw [if_neg hle] at hstep
          exact Halts.one hstep (by simp)
  | err e =>
    simp only [exec] at hstep
    exact ⟨s, Halts.one hstep (by simp), put_get hb, hd⟩
  | crash => exact Halts.one hstep (by simp)
  | toPtr => trivial
  | toJSON => trivial

theorem leaf_text {x : Ext} {src : Bytes} {et : EType} {v : JVal} {b : Bytes} (h : leaf x src et v = .text b) : et = .textUnmarshaler := by
  cases v with
  | null i e => cases et <;> simp [leaf, onNull] at h
  | bool c i e =>
    cases et <;> simp [leaf, onBool] at h
    rename_i k
    cases k <;> simp at h
  | num c i e =>
    cases c
    · simp only [leaf] at h
      cases hs : slice src i e with
      | none => rw [hs] at h; cases h
      | some tv =>
        rw [hs] at h
        simp only [] at h
        cases et <;> simp [onNumber] at h
        · split at h <;> cases h
        · rename_i k
          cases k <;> simp [storeFlt] at h
          split at h <;> cases h
    · simp only [leaf] at h
      cases hs : slice src i e with
      | none => rw [hs] at h; cases h
      | some tv =>
        rw [hs] at h
        simp only [] at h
        cases et <;> simp [onInteger] at h
        · split at h <;> cases h
        · rename_i k
          cases k <;> simp [storeFlt, storeInt] at h
          · split at h
            · split at h
              · cases h
              · split at h
                · cases h
                · split at h <;> cases h
            · split at h <;> cases h
          · split at h <;> cases h
  | str i e =>
    simp only [leaf] at h
    cases hs : slice src (i + 1) (e - 1) with
    | none => rw [hs] at h; cases h
    | some tv =>
      rw [hs] at h
      simp only [] at h
      cases et <;> simp [onString] at h <;> first | rfl | skip
      · split at h
        · cases h
        · split at h <;> cases h
      · split at h <;> cases h
      · rename_i k
        cases k <;> simp at h
        split at h <;> cases h
      · rename_i k
        cases k <;> simp [storeFlt] at h
        · split at h
          · cases h
          · split at h <;> cases h
        · split at h
          · cases h
          · split at h <;> cases h
        · split at h <;> cases h
        · split at h
          · cases h
          · split at h
            · cases h
            · split at h <;> cases h
  | arr _ _ _ => simp [leaf] at h
  | obj _ _ _ => simp [leaf] at h

/-- A scalar document at a frame without a text unmarshaler. -/
theorem sim_leaf {pr : Prog} {s : St} {b w : Nat} {path : List Step} {off : Nat} {blk : Block} {v : JVal} {rest : List Token} {f : Frame}
    (h : Pre pr s b path off blk v rest) (hf : pr.frames[b]? = some f) (hv : isLeaf v = true) {rt : Option TypeId} {size : Nat} {impl : Bool}
    (ht : f.type = .textUnmarshaler → f.rtype = rt ∧ f.size = size ∧ f.ptrImpl = impl) :
    Post pr s b w path (flatten s.ti v).length (execB pr.x rt size impl blk off v.index (leaf pr.x pr.src f.type v)) := by
  obtain ⟨t, hfl, hidx, hdis⟩ := flatten_leaf hv s.ti
  have htk := h.toks
  rw [hfl] at htk ⊢
  have hs := step_loop h.pc (toks_head htk) (by rw [h.si]; exact hf)
  rw [hdis] at hs
  exact sim_exec h.si h.p h.blk h.dyn hidx hs (fun x hx => ht (leaf_text hx))

/-- A composite document where a scalar is expected. -/
theorem sim_mismatch {pr : Prog} {s : St} {b w : Nat} {path : List Step} {off : Nat} {blk : Block} {v : JVal} {rest : List Token} {f : Frame}
    (h : Pre pr s b path off blk v rest) (hf : pr.frames[b]? = some f) (n : Nat)
    (hv : (∃ i es k, v = .arr i es k ∧ ∀ t, onArray pr s f t = .err t.index .unexpectedValue s) ∨
          (∃ i ms k, v = .obj i ms k ∧ ∀ t, onObject pr s f t = .err t.index .unexpectedValue s)) :
    Post pr s b w path n (.err v.index .unexpectedValue blk) := by
  rcases hv with ⟨i, es, k, rfl, hv⟩ | ⟨i, es, k, rfl, hv⟩
  all_goals
    have htk := h.toks
    simp only [flatten, List.cons_append] at htk
    have hs := step_loop h.pc (toks_head htk) (by rw [h.si]; exact hf)
    simp only [dispatch, hv] at hs
    exact ⟨s, Halts.one hs (by simp), put_get h.blk, h.dyn⟩

end Verif.Proof.Sim

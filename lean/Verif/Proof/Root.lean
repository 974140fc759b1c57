import Verif.Big.Top
import Verif.Proof.SimStruct
import Verif.Proof.Term
/-!
# `Decode` follows the type-directed reading
-/
namespace Verif.Proof.Sim
open Verif.Model Verif.Big Verif.Proof.Mem Verif.Proof.Any

/-- The root frame, or the frame of a pointee. -/
def TopFrame (fr : List Frame) (b : Nat) : Prop :=
  ∃ f, fr[b]? = some f ∧ (f.parent = none ∨ ∃ q g, f.parent = some q ∧ fr[q]? = some g ∧ g.type = .ptr)

/-- What the machine does when the document ends with the value. -/
def TopPost (pr : Prog) (s : St) (path : List Step) : Res → Prop
  | .ok blk' => ∃ s', Halts pr s (.done s') ∧ putBlock s.mem path blk' = some s'.mem ∧ s'.dyn 0 = s.dyn 0 ∧ DynOK pr.frames s'.dyn
  | .err i e blk' => ∃ s', Halts pr s (.err i e s') ∧ putBlock s.mem path blk' = some s'.mem ∧ DynOK pr.frames s'.dyn
  | .crash => Halts pr s .crash
  | .unsup => True

theorem toks_end {toks : List Token} {i : Nat} (h : toks.drop i = []) : toks[i]? = none := by
  rw [List.getElem?_eq_none]
  exact List.drop_eq_nil_iff.1 h

theorem step_done {pr : Prog} {s : St} (h : s.pc = .loop) (ht : pr.toks.drop s.ti = []) : step pr s = .done s := by
  simp [step, h, toks_end ht]

/-- The end of the value is the end of the document. -/
theorem top_end {pr : Prog} {s : St} {b : Nat} (hb : TopFrame pr.frames b) (hpc : s.pc = .valEnd) (hsi : s.si = b) (ht : pr.toks.drop s.ti = []) :
    ∃ s', Halts pr s (.done s') ∧ s'.mem = s.mem ∧ s'.dyn = s.dyn := by
  obtain ⟨f, hf, hp⟩ := hb
  have hs : step pr s = onValEnd pr s f := by simp [step, hpc, hsi, hf]
  rcases hp with hp | ⟨q, g, hp, hg, hgt⟩
  · simp only [onValEnd, hp] at hs
    exact ⟨_, (Reach.one hs).halts (Halts.one (step_done rfl ht) (by simp)), rfl, rfl⟩
  · simp only [onValEnd, hp, hg, hgt] at hs
    exact ⟨_, (Reach.one hs).halts (Halts.one (step_done rfl ht) (by simp)), rfl, rfl⟩

theorem Post.top {pr : Prog} {s : St} {b w : Nat} {path : List Step} {v : JVal} {r : Res} (hb : TopFrame pr.frames b)
    (ht : pr.toks.drop s.ti = flatten s.ti v ++ []) (h : Post pr s b w path (flatten s.ti v).length r) : TopPost pr s path r := by
  cases r with
  | ok blk' =>
    obtain ⟨s1, h1, h2, h3, h4, h5, h6, h7⟩ := h
    obtain ⟨s2, k1, k2, k3⟩ := top_end hb h2 h3 (by rw [h4]; exact toks_drop ht)
    exact ⟨s2, h1.halts k1, by rw [k2]; exact h5, by rw [k3]; exact h6 0 (by omega), by rw [k3]; exact h7⟩
  | err i e blk' => exact h
  | crash => exact h
  | unsup => trivial

theorem top_ptr_step {pr : Prog} {s : St} {b : Nat} {path : List Step} {off : Nat} {blk : Block} {v : JVal} {f : Frame} {rest : List Token}
    (h : Pre pr s b path off blk v rest) (hf : pr.frames[b]? = some f) (hty : f.type = .ptr) (hv : ∀ i e, v ≠ .null i e) :
    step pr s = if tokOK pr.src v = false then .crash else .run { s with pc := .onPtr } := by
  cases v with
  | null i e => exact absurd rfl (hv i e)
  | bool c i e =>
    obtain ⟨t, hfl, hidx, hdis⟩ := flatten_leaf (v := .bool c i e) rfl s.ti
    have htk := h.toks
    rw [hfl] at htk
    have hs := step_loop h.pc (toks_head htk) (by rw [h.si]; exact hf)
    rw [hdis, hty] at hs
    rw [hs]; rfl
  | num c i e =>
    obtain ⟨t, hfl, hidx, hdis⟩ := flatten_leaf (v := .num c i e) rfl s.ti
    have htk := h.toks
    rw [hfl] at htk
    have hs := step_loop h.pc (toks_head htk) (by rw [h.si]; exact hf)
    rw [hdis, hty] at hs
    rw [hs]
    cases hsl : slice pr.src i e with
    | none => cases c <;> (simp only [leaf, tokOK, hsl]; rfl)
    | some tv => cases c <;> (simp only [leaf, tokOK, hsl]; rfl)
  | str i e =>
    obtain ⟨t, hfl, hidx, hdis⟩ := flatten_leaf (v := .str i e) rfl s.ti
    have htk := h.toks
    rw [hfl] at htk
    have hs := step_loop h.pc (toks_head htk) (by rw [h.si]; exact hf)
    rw [hdis, hty] at hs
    rw [hs]
    cases hsl : slice pr.src (i + 1) (e - 1) with
    | none => simp only [leaf, tokOK, hsl]; rfl
    | some tv => simp only [leaf, tokOK, hsl]; rfl
  | arr i es k =>
    rw [step_arr h hf]; simp [onArray, hty, tokOK]
  | obj i es k =>
    rw [step_obj h hf]; simp [onObject, hty, tokOK]

theorem top_flat {pr : Prog} {ty : Ty} {b : Nat} (hr : Rep pr.x pr.frames ty b) (hb : TopFrame pr.frames b)
    (hd : decTop pr.x pr.src pr.options ty = dec pr.x pr.src pr.options ty)
    {s : St} {v : JVal} {path : List Step} {off : Nat} {blk : Block} (h : Pre pr s b path off blk v []) :
    TopPost pr s path (decTop pr.x pr.src pr.options ty v blk off) := by
  rw [hd]
  exact (sim hr s _ path off blk _ h).top hb h.toks

/-- An object into a root `struct{}`. -/
theorem top_emptyStruct {pr : Prog} {b : Nat} (hr : Rep pr.x pr.frames .emptyStruct b) (hroot : ∀ f, pr.frames[b]? = some f → f.parent = none)
    {s : St} {i k : Nat} {ms : List ((Nat × Nat) × JVal)} {path : List Step} {off : Nat} {blk : Block} (h : Pre pr s b path off blk (.obj i ms k) []) :
    TopPost pr s path (.ok blk) := by
  obtain ⟨f, hf, hty, -⟩ := hr
  have hp := hroot f hf
  have hs := step_obj h hf
  simp only [onObject, hty] at hs
  have htk := h.toks
  simp only [flatten] at htk
  have hcl := toks_close htk
  have hend : pr.toks.drop (s.ti + 1 + (flattenM (s.ti + 1) ms).length + 1) = [] := by
    have := toks_drop htk
    simp only [List.length_cons, List.length_append, List.length_nil] at this
    rw [← this]; congr 1; omega
  have h2 : step pr { s with ti := s.ti + 1 + (flattenM (s.ti + 1) ms).length, pc := .valEnd } =
      .run { s with ti := s.ti + 1 + (flattenM (s.ti + 1) ms).length, pc := .loop } := by
    simp [step, h.si, hf, onValEnd, hp]
  have h3 : step pr { s with ti := s.ti + 1 + (flattenM (s.ti + 1) ms).length, pc := .loop } =
      .run { s with ti := s.ti + 1 + (flattenM (s.ti + 1) ms).length + 1, pc := .recurObjEnd } := by
    rw [step_loop (s := { s with ti := s.ti + 1 + (flattenM (s.ti + 1) ms).length, pc := .loop }) rfl hcl (by simp only []; rw [h.si]; exact hf)]
    simp [dispatch, onObjectEnd, hty]
  have h4 : step pr { s with ti := s.ti + 1 + (flattenM (s.ti + 1) ms).length + 1, pc := .recurObjEnd } =
      .run { s with ti := s.ti + 1 + (flattenM (s.ti + 1) ms).length + 1, pc := .valEnd } := by
    simp [step, h.si, hf, onRecurObjEnd, h.dyn.rs b (fun f' hf' => by rw [hf] at hf'; cases hf'; rw [hty]; decide)]
  obtain ⟨s2, k1, k2, k3⟩ := top_end (pr := pr) (s := { s with ti := s.ti + 1 + (flattenM (s.ti + 1) ms).length + 1, pc := .valEnd })
    ⟨f, hf, .inl hp⟩ rfl h.si hend
  exact ⟨s2, (Reach.head hs (Reach.head h2 (Reach.head h3 (Reach.one h4)))).halts k1, by rw [k2]; exact put_get h.blk, by rw [k3], by rw [k3]; exact h.dyn⟩

/-- The machine on a whole document. -/
theorem top_sim {pr : Prog} : ∀ {ty : Ty} {b : Nat}, Rep pr.x pr.frames ty b → TopFrame pr.frames b →
    (ty = .emptyStruct → ∀ f, pr.frames[b]? = some f → f.parent = none) →
    ∀ {s : St} {v : JVal} {path : List Step} {off : Nat} {blk : Block}, Pre pr s b path off blk v [] →
      TopPost pr s path (decTop pr.x pr.src pr.options ty v blk off)
  | .ptr e, b, hr, hb, _, s, v, path, off, blk, h => by
    have hr' := hr
    obtain ⟨⟨f, hf, hty, -⟩, ⟨c, hc, hcp, hco⟩, hre⟩ := hr
    obtain ⟨c', hc', hct, hcs⟩ := hre.frame
    rw [hc] at hc'; cases hc'
    have hW := W_pos pr.x
    by_cases hv : ∃ i e, v = .null i e
    · obtain ⟨i, e', rfl⟩ := hv
      exact (sim hr' s _ path off blk _ h).top hb h.toks
    · have hdec : decTop pr.x pr.src pr.options (.ptr e) v blk off =
          if tokOK pr.src v = false then .crash
          else if e.size pr.x = 0 then .unsup
          else match blit blk off (seg pr.x.W (.ptr (zeros (e.size pr.x)))) with
            | none => .crash
            | some b => (decTop pr.x pr.src pr.options e v (zeros (e.size pr.x)) 0).bindB (putIn b off .deref) := by
        cases v <;> first | rfl | exact absurd ⟨_, _, rfl⟩ hv
      rw [hdec]
      have hs := top_ptr_step h hf hty (fun i e hc => hv ⟨i, e, hc⟩)
      by_cases hok : tokOK pr.src v = false
      · rw [if_pos hok] at hs ⊢
        exact Halts.one hs (by simp)
      · rw [if_neg hok] at hs ⊢
        by_cases hz : e.size pr.x = 0
        · rw [if_pos hz]; trivial
        · rw [if_neg hz]
          have hp' : ({ s with pc := PC.onPtr } : St).p = .at ⟨path, off⟩ := by simp only [St.p, h.si]; exact h.p
          have hs2 : step pr { s with pc := .onPtr } = onPtr pr { s with pc := .onPtr } := rfl
          simp only [onPtr, hp'] at hs2
          simp only [h.si, hc, hcs, writeSeg_at h.blk] at hs2
          cases hbl : blit blk off (seg pr.x.W (.ptr (zeros (e.size pr.x)))) with
          | none =>
            rw [hbl] at hs2
            have : ({ s with pc := PC.onPtr } : St) = { ti := s.ti, si := b, pc := .onPtr, dyn := s.dyn, mem := s.mem } := by rw [← h.si]
            rw [this] at hs
            exact (Reach.one hs).halts (Halts.one (o := .crash) hs2 (by simp))
          | some b1 =>
            rw [hbl] at hs2
            obtain ⟨m1, hm1⟩ := putBlock_total b1 h.blk
            simp only [Option.bind_some, hm1, if_neg hz] at hs2
            have hcell := blit_seg_get hW hbl
            have hder : getBlock b1 [⟨off, .deref⟩] = some (zeros (e.size pr.x)) := by simp [getBlock, hcell, ownedBlock]
            have hpre : Pre pr ({ s with mem := m1, si := b + 1, pc := PC.loop, dyn := upd s.dyn (b + 1) (fun y => { y with dest := .at (Addr.into ⟨path, off⟩ .deref) }) } : St)
                (b + 1) (path ++ [⟨off, .deref⟩]) 0 (zeros (e.size pr.x)) v [] := by
              refine ⟨rfl, rfl, ?_, h.toks, ?_, h.dyn.upd_dest (b + 1) (g := fun y => { y with dest := .at (Addr.into ⟨path, off⟩ .deref) }) rfl rfl⟩
              · have := h.dyn.off (b + 1) c b f hc (by rw [hct]; exact etype_ne e) hcp hf (.inr (.inr (.inl hty)))
                simp [upd, Ptr.add, Addr.into, this, hco]
              · simp only []
                rw [getBlock_append, get_put hm1]; exact hder
            have hchild := top_sim (ty := e) hre ⟨c, hc, .inr ⟨b, f, hcp, hf, hty⟩⟩ (fun he => absurd (by rw [he]; rfl) hz) hpre
            have : ({ s with pc := PC.onPtr } : St) = { ti := s.ti, si := b, pc := .onPtr, dyn := s.dyn, mem := s.mem } := by rw [← h.si]
            rw [this] at hs
            have hreach : Reach pr s _ := (Reach.one hs).trans (Reach.one hs2)
            have key : ∀ a m', putBlock m1 (path ++ [⟨off, .deref⟩]) a = some m' → ∃ b', putIn b1 off .deref a = some b' ∧ putBlock s.mem path b' = some m' := by
              intro a m' ha
              rw [putBlock_append (get_put hm1)] at ha
              cases hp : putBlock b1 [⟨off, .deref⟩] a with
              | none => rw [hp] at ha; cases ha
              | some b' =>
                rw [hp] at ha
                exact ⟨b', hp, by rw [← put_put hm1]; exact ha⟩
            simp only []
            cases hres : decTop pr.x pr.src pr.options e v (zeros (e.size pr.x)) 0 with
            | ok a =>
              rw [hres] at hchild
              obtain ⟨s', k1, k2, k3, k4⟩ := hchild
              obtain ⟨b', hb', hm'⟩ := key _ _ k2
              simp only [Res.bindB, hb']
              refine ⟨s', hreach.halts k1, hm', ?_, k4⟩
              rw [k3]
              simp only [upd]
              rw [if_neg (by omega)]
            | err i er a =>
              rw [hres] at hchild
              obtain ⟨s', k1, k2, k3⟩ := hchild
              obtain ⟨b', hb', hm'⟩ := key _ _ k2
              simp only [Res.bindB, hb']
              exact ⟨s', hreach.halts k1, hm', k3⟩
            | crash => rw [hres] at hchild; exact hreach.halts hchild
            | unsup => trivial
  | .emptyStruct, b, hr, hb, hroot, s, v, path, off, blk, h => by
    cases v with
    | obj i ms k => exact top_emptyStruct hr (hroot rfl) h
    | null _ _ | bool _ _ _ | num _ _ _ | str _ _ | arr _ _ _ => exact (sim hr s _ path off blk _ h).top hb h.toks
  | .any, b, hr, hb, _, s, v, path, off, blk, h => top_flat hr hb rfl h
  | .number, b, hr, hb, _, s, v, path, off, blk, h => top_flat hr hb rfl h
  | .scalar _, b, hr, hb, _, s, v, path, off, blk, h => top_flat hr hb rfl h
  | .quoted _, b, hr, hb, _, s, v, path, off, blk, h => top_flat hr hb rfl h
  | .jsonU _ _ _, b, hr, hb, _, s, v, path, off, blk, h => top_flat hr hb rfl h
  | .textU _ _ _, b, hr, hb, _, s, v, path, off, blk, h => top_flat hr hb rfl h
  | .array0, b, hr, hb, _, s, v, path, off, blk, h => top_flat hr hb rfl h
  | .array _ _, b, hr, hb, _, s, v, path, off, blk, h => top_flat hr hb rfl h
  | .slice _, b, hr, hb, _, s, v, path, off, blk, h => top_flat hr hb rfl h
  | .sliceOf _, b, hr, hb, _, s, v, path, off, blk, h => top_flat hr hb rfl h
  | .sliceES, b, hr, hb, _, s, v, path, off, blk, h => top_flat hr hb rfl h
  | .mapSS, b, hr, hb, _, s, v, path, off, blk, h => top_flat hr hb rfl h
  | .map _ _, b, hr, hb, _, s, v, path, off, blk, h => top_flat hr hb rfl h
  | .struct _ _, b, hr, hb, _, s, v, path, off, blk, h => top_flat hr hb rfl h

end Verif.Proof.Sim

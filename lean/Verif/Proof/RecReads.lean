import Verif.Proof.RecTypes
import Verif.Proof.RecVal
import Verif.Proof.RecFragment
import Verif.Proof.SimRecObj
import Verif.Proof.Reads
/-!
# Recursive struct types: what `Decode` does
-/
namespace Verif.Proof.Reads
open Verif.Model Verif.Big Verif.Spec Verif.Proof Verif.Proof.Sim Verif.Proof.Types Verif.Proof.Val Verif.Proof.Term

/-- What holds of a decoder for a recursive struct type between calls. -/
structure RecReady (x : Ext) (size : Nat) (fs : RFields) (d : Decoder) : Prop where
  root : ∃ f fr, d.frames = f :: fr ∧ f.parent = none ∧ f.type = .structRecur ∧ f.size = size ∧ RepR x (f :: fr) 0 size fs 1 f.fields
  ok : ∀ e, OK x e → OKF x size (tyF e fs)
  dyn : DynOK d.frames d.dyn
  rstack : (d.dyn 0).rstack = []
  offset : (d.dyn 0).offset = 0

theorem new_recReady {env : TypeEnv} {x : Ext} {opts : Option InitOptions} {depth : Nat} {t : TypeId} {size : Nat} {fs : RFields} (h : RecType env x opts depth t size fs)
    {d : Decoder} (hd : newDecoder env x.W opts (depth + 1) (some t) = .ok d) : RecReady x size fs d := by
  obtain ⟨f, fr, h1, h2, h3, h4, h5, h6, h7⟩ := rec_built h
  simp only [newDecoder, h1, NewRes.ok.injEq] at hd
  subst hd
  refine ⟨⟨f, fr, rfl, h2, h4, h5, h6⟩, h7, fresh_dynOK _, ?_, ?_⟩
  · simp [freshDyn]
  · simp [freshDyn, h3]

theorem RecReady.next {x : Ext} {size : Nat} {fs : RFields} {d : Decoder} (h : RecReady x size fs d) {dy : Nat → Dyn} (hd : DynOK d.frames dy) (h1 : (dy 0).rstack = []) (h2 : (dy 0).offset = 0)
    (n : Nat) : RecReady x size fs { d with dyn := resetDests dy, calls := n } :=
  ⟨h.root, h.ok, resetDests_dynOK hd, h1, h2⟩

theorem decode_rec {x : Ext} {size : Nat} {fs : RFields} {d : Decoder} (h : RecReady x size fs d) {src : Bytes} {v : JVal} {mem : Block} {o : Option Options} {V : Val} {n : Nat}
    (ht : TameR x src o fs n true true v) (hV : Dest x (unroll size fs (n + 1)) mem V) :
    Exact (decode x d src (.ok v) (some mem) o) (decR x src o size fs n v mem 0) ∧
    ∀ r, decode x d src (.ok v) (some mem) o = some r → (∃ b, decR x src o size fs n v mem 0 = .ok b) → RecReady x size fs r.dec := by
  obtain ⟨f, fr, hfr, hp, hty, hsz, hrep⟩ := h.root
  obtain ⟨hl, hV⟩ := hV
  have hl : mem.length = size := hl
  have hf : d.frames[0]? = some f := by rw [hfr]; rfl
  have hrec : RecAt { x := x, src := src, toks := flatten 0 v, frames := d.frames, options := o, epoch := d.calls } size fs 0 f := ⟨hf, hty, hsz, by rw [hfr]; exact hrep⟩
  have hpre : Pre { x := x, src := src, toks := flatten 0 v, frames := d.frames, options := o, epoch := d.calls } (initSt d.dyn mem) 0 [] 0 mem v [] := by
    refine ⟨rfl, rfl, ?_, by simp [initSt], rfl, init_dynOK h.dyn mem⟩
    simp [initSt, upd, Ptr.add, h.offset]
  have hsim := top_rec hrec hp hpre (by simp [initSt, upd, h.rstack]) (by simp [initSt, upd, h.offset]) ht
  have hrel := decR_rel (src := src) (o := o) h.ok n v mem 0 V hV
  have hstop := run_stops (pr := { x := x, src := src, toks := flatten 0 v, frames := d.frames, options := o, epoch := d.calls }) (tokOK_flatten v) d.dyn mem
  simp only [] at hsim
  cases hb : decR x src o size fs n v mem 0 with
  | ok b' =>
    rw [hb] at hsim hrel
    obtain ⟨s', k1, k2, k3, k4⟩ := hsim
    have hlen' : b'.length = mem.length := by
      cases hv : decRV x src o size fs n v V with
      | ok V' => rw [hv] at hrel; exact hrel.2.1
      | err _ _ _ | crash | unsup => rw [hv] at hrel; exact hrel.elim
    have hrun := k1.unique hstop
    simp only [putBlock, Option.some.injEq] at k2
    have hdest : (s'.dyn 0).dest = .at ⟨[], 0⟩ := by rw [k3]; simp [initSt, upd]
    have hrd : (readSeg s'.mem (s'.dyn 0).dest f.size).bind (fun b => blit s'.mem 0 b) = some s'.mem := by
      rw [hdest, hsz]
      have hlen : s'.mem.length = size := by rw [← k2, hlen', hl]
      simp only [readSeg, getBlock, Option.bind_some, Nat.zero_add, hlen, Nat.le_refl, if_pos, List.drop_zero]
      rw [List.take_of_length_le (by omega)]
      exact blit_self _
    have heq : decode x d src (.ok v) (some mem) o = some ⟨-1, none, some b', { d with dyn := resetDests s'.dyn, calls := d.calls + 1 }⟩ := by
      simp only [decode, hfr]; rw [← hfr, hrun]; simp only [hrd]; rw [← k2]
    refine ⟨⟨_, heq⟩, fun r hr _ => ?_⟩
    rw [heq] at hr; cases hr
    refine h.next k4 ?_ ?_ _
    · rw [k3]; simp [initSt, upd, h.rstack]
    · rw [k3]; simp [initSt, upd, h.offset]
  | err i e b' =>
    rw [hb] at hsim
    obtain ⟨s', k1, k2, k3⟩ := hsim
    have hrun := k1.unique hstop
    simp only [putBlock, Option.some.injEq] at k2
    refine ⟨⟨_, by simp only [decode, hfr]; rw [← hfr, hrun]; simp only []; rw [← k2]⟩, ?_⟩
    rintro r - ⟨b, hc⟩; cases hc
  | crash =>
    rw [hb] at hsim
    have hrun := Halts.unique hsim hstop
    refine ⟨?_, by rintro r - ⟨b, hc⟩; cases hc⟩
    show decode x d src (.ok v) (some mem) o = none
    simp only [decode, hfr]; rw [← hfr, hrun]
  | unsup => exact ⟨trivial, by rintro r - ⟨b, hc⟩; cases hc⟩

theorem recDecoder_ready {x : Ext} {size : Nat} {fs : RFields} {d : Decoder} (h : RecDecoder x size fs d) : RecReady x size fs d := by
  induction h with
  | new h1 h2 => exact new_recReady h1 h2
  | @refused d src doc t o r _ hr hd ih =>
    cases t with
    | none => simp only [decode, Option.some.injEq] at hd; subst hd; exact ih.next ih.dyn ih.rstack ih.offset _
    | some mem =>
      obtain hr | ⟨i, c, rfl⟩ := hr
      · cases hr
      · simp only [decode] at hd
        split at hd
        · cases hd
        · cases hd
          exact ih.next (init_dynOK ih.dyn mem) (by simp [initSt, upd, ih.rstack]) (by simp [initSt, upd, ih.offset]) _
  | @call d src v mem o r n V _ ht hV hd he ih =>
    obtain ⟨h1, h2⟩ := decode_rec ih ht hV
    refine h2 r hd ?_
    have hs := h1
    rw [hd] at hs
    cases hb : decR x src o size fs n v mem 0 with
    | ok b => exact ⟨b, rfl⟩
    | err i e b => rw [hb] at hs; obtain ⟨d', hs⟩ := hs; cases hs; cases he
    | crash => rw [hb] at hs; cases hs
    | unsup => exact absurd hb (Fragment.decR_ne n true true v ht mem 0)

theorem decode_recReads {x : Ext} {size : Nat} {fs : RFields} {d : Decoder} (h : RecDecoder x size fs d) {src : Bytes} {v : JVal} {mem : Block} {o : Option Options} {V : Val} {n : Nat}
    (ht : TameR x src o fs n true true v) (hV : Dest x (unroll size fs (n + 1)) mem V) :
    Reads x (unroll size fs (n + 1)) mem (decode x d src (.ok v) (some mem) o) (decRV x src o size fs n v V) := by
  have hr := recDecoder_ready h
  have hrel := decR_rel (src := src) (o := o) hr.ok n v mem 0 V hV.2
  have hex := (decode_rec hr ht hV).1
  have hne := Fragment.decR_ne (size := size) n true true v ht mem 0
  cases hb : decR x src o size fs n v mem 0 <;> rw [hb] at hex hrel <;> first | exact absurd hb hne | skip
  all_goals cases hv : decRV x src o size fs n v V <;> rw [hv] at hrel <;> first | exact hrel.elim | skip
  · obtain ⟨d', hd⟩ := hex
    exact ⟨_, _, hd, rfl, rfl, rfl, hrel.2.1, hrel.1⟩
  · obtain ⟨d', hd⟩ := hex
    obtain ⟨rfl, rfl, r1, r2⟩ := hrel
    exact ⟨_, _, hd, rfl, rfl, rfl, r2.1, r1⟩
  · exact hex

end Verif.Proof.Reads

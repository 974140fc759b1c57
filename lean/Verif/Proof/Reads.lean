import Verif.Proof.Table
import Verif.Proof.Types
import Verif.Proof.ValAll
/-!
# `NewDecoder` and `Decode` on types without recursion
-/
namespace Verif.Proof.Reads
open Verif.Model Verif.Big Verif.Spec Verif.Proof Verif.Proof.Sim Verif.Proof.Types Verif.Proof.Val Verif.Proof.Term

/-- The decoder is one for the type tree, and ready to decode. -/
structure Ready (x : Ext) (ty : Ty) (d : Decoder) : Prop where
  len : d.frames.length = ty.width
  rep : Rep x d.frames ty 0
  root : ∃ f, d.frames[0]? = some f ∧ f.parent = none ∧ f.offset = 0
  ok : OK x ty
  dyn : DynOK d.frames d.dyn

theorem Ready.table {x : Ext} {ty : Ty} {d : Decoder} (h : Ready x ty d) : Table d.frames := by
  intro i f hf
  refine rep_table ty h.rep i (Nat.zero_le _) ?_
  have := (List.getElem?_eq_some_iff.1 hf).1
  rw [Nat.zero_add, ← h.len]; exact this

theorem fresh_dynOK (fr : List Frame) : DynOK fr (freshDyn fr) := by
  constructor
  · intro i c p g hc _ _ _ _; simp [freshDyn, hc]
  · intro i c hc _ _; simp [freshDyn, hc]
  · intro i _; unfold freshDyn; split <;> rfl

theorem newDecoder_ready {env : TypeEnv} {x : Ext} (hL : Layout env x) {allow : Bool} {opts : Option InitOptions}
    (hopt : allow = true → ∃ o, opts = some o ∧ o.disallowStringTagOptOnUnsupportedTypes = false) {depth : Nat} {t : TypeId} {ty : Ty} {seen : List TypeId}
    (h : typeTree env allow depth [] t = some (ty, seen)) :
    ∃ d, newDecoder env x.W opts depth (some t) = .ok d ∧ Ready x ty d ∧ ty.size x = (env t).size := by
  obtain ⟨root, tl, hb⟩ := tree_built hL hopt depth [] t ty seen [] h (by intro f hf; cases hf)
  refine ⟨⟨root :: tl, freshDyn (root :: tl), 0⟩, ?_, ⟨?_, ?_, ⟨root, rfl, hb.parent, hb.offset⟩, hb.ok, fresh_dynOK _⟩, hb.size⟩
  · simp only [newDecoder, hb.app, List.nil_append]
  · have := hb.len; simp only [List.length_cons]; omega
  · exact hb.rep (root :: tl) root (Variant.refl _) rfl (fun i f hi => by rw [← hi]; simp [Nat.add_comm])

theorem resetDests_dynOK {fr : List Frame} {d : Nat → Dyn} (h : DynOK fr d) : DynOK fr (resetDests d) :=
  ⟨fun i c p g a n b c' d' => h.off i c p g a n b c' d', fun i c a n b => h.root i c a n b, fun i hi => h.rs i hi⟩

theorem Ready.next {x : Ext} {ty : Ty} {d : Decoder} (h : Ready x ty d) {dy : Nat → Dyn} (hd : DynOK d.frames dy) (n : Nat) :
    Ready x ty { d with dyn := resetDests dy, calls := n } :=
  ⟨h.len, h.rep, h.root, h.ok, resetDests_dynOK hd⟩

theorem init_dynOK {fr : List Frame} {d : Nat → Dyn} (h : DynOK fr d) (mem : Block) : DynOK fr (initSt d mem).dyn :=
  h.upd_dest 0 (g := fun y => { y with dest := .at ⟨[], 0⟩ }) rfl rfl

/-- After any call of `Decode` that returns, the decoder is as good as before. -/
theorem decode_ready {x : Ext} {ty : Ty} {d : Decoder} (h : Ready x ty d) {src : Bytes} {doc : Except (Nat × Nat) JVal} {t : Option Block} {o : Option Options} {r : DecodeRes}
    (hr : decode x d src doc t o = some r) : Ready x ty r.dec := by
  cases t with
  | none => simp only [decode, Option.some.injEq] at hr; subst hr; exact h.next h.dyn _
  | some mem =>
    cases doc with
    | error ic =>
      obtain ⟨i, c⟩ := ic
      simp only [decode] at hr
      split at hr
      · cases hr
      · cases hr; exact h.next (init_dynOK h.dyn mem) _
    | ok v =>
      simp only [decode] at hr
      split at hr
      · cases hr
      · rename_i f0 fs hfr
        have hrun := run_dynOK (pr := { x := x, src := src, toks := flatten 0 v, frames := d.frames, options := o, epoch := d.calls }) h.table
          (fuelFor { x := x, src := src, toks := flatten 0 v, frames := d.frames, options := o, epoch := d.calls }) (init_dynOK h.dyn mem)
        split at hr
        · rename_i hro
          rw [hro] at hrun
          cases hr; exact h.next hrun _
        · rename_i hro
          rw [hro] at hrun
          split at hr
          · cases hr
          · cases hr; exact h.next hrun _
        · cases hr

/-- What `Decode` does, given the outcome of the reading of the document on memory. -/
def Exact (res : Option DecodeRes) : Res → Prop
  | .ok b => ∃ d', res = some ⟨-1, none, some b, d'⟩
  | .err i e b => ∃ d', res = some ⟨i, some e, some b, d'⟩
  | .crash => res = none
  | .unsup => True

theorem blit_self (b : Block) : blit b 0 b = some b := by simp [blit]

theorem decode_exact {x : Ext} {ty : Ty} {d : Decoder} (h : Ready x ty d) {src : Bytes} {v : JVal} {mem : Block} {o : Option Options} {V : Val}
    (hl : mem.length = ty.size x) (hV : Holds x ty mem 0 V) :
    Exact (decode x d src (.ok v) (some mem) o) (decTop x src o ty v mem 0) := by
  obtain ⟨f, hf, hp, ho⟩ := h.root
  obtain ⟨fs, hfr⟩ : ∃ fs, d.frames = f :: fs := by
    cases hd : d.frames with
    | nil => rw [hd] at hf; cases hf
    | cons g fs => rw [hd] at hf; cases hf; exact ⟨fs, rfl⟩
  obtain ⟨f', hf', -, hsz⟩ := h.rep.frame
  rw [hf] at hf'; cases hf'
  have hpre : Pre { x := x, src := src, toks := flatten 0 v, frames := d.frames, options := o, epoch := d.calls } (initSt d.dyn mem) 0 [] 0 mem v [] := by
    refine ⟨rfl, rfl, ?_, by simp [initSt], rfl, init_dynOK h.dyn mem⟩
    have := h.dyn.root 0 f hf (fun hc => absurd (h.table.nr hf hc) (by decide)) hp
    simp [initSt, upd, Ptr.add, this, ho]
  have hsim := top_sim (pr := { x := x, src := src, toks := flatten 0 v, frames := d.frames, options := o, epoch := d.calls }) h.rep ⟨f, hf, .inl hp⟩
    (fun _ g hg => by rw [hf] at hg; cases hg; exact hp) hpre
  have hrel := decTop_rel (src := src) (o := o) ty h.ok v mem 0 V hV
  have hstop := run_stops (pr := { x := x, src := src, toks := flatten 0 v, frames := d.frames, options := o, epoch := d.calls }) (tokOK_flatten v) d.dyn mem
  simp only [] at hsim
  cases hb : decTop x src o ty v mem 0 with
  | ok b' =>
    rw [hb] at hsim hrel
    obtain ⟨s', k1, k2, k3, k4⟩ := hsim
    have hlen' : b'.length = mem.length := by
      cases hv : decTopV x src o ty v V with
      | ok V' => rw [hv] at hrel; exact hrel.2.1
      | err _ _ _ | crash | unsup => rw [hv] at hrel; exact hrel.elim
    have hrun := k1.unique hstop
    simp only [putBlock, Option.some.injEq] at k2
    have hdest : (s'.dyn 0).dest = .at ⟨[], 0⟩ := by rw [k3]; simp [initSt, upd]
    have hrd : (readSeg s'.mem (s'.dyn 0).dest f.size).bind (fun b => blit s'.mem 0 b) = some s'.mem := by
      rw [hdest, hsz]
      have hlen : s'.mem.length = ty.size x := by rw [← k2, hlen', hl]
      simp only [readSeg, getBlock, Option.bind_some, Nat.zero_add, hlen, Nat.le_refl, if_pos, List.drop_zero]
      rw [List.take_of_length_le (by omega)]
      exact blit_self _
    refine ⟨_, by simp only [decode, hfr]; rw [← hfr, hrun]; simp only [hrd]; rw [← k2]⟩
  | err i e b' =>
    rw [hb] at hsim
    obtain ⟨s', k1, k2, k3⟩ := hsim
    have hrun := k1.unique hstop
    simp only [putBlock, Option.some.injEq] at k2
    refine ⟨_, by simp only [decode, hfr]; rw [← hfr, hrun]; simp only []; rw [← k2]⟩
  | crash =>
    rw [hb] at hsim
    have hrun := Halts.unique hsim hstop
    show decode x d src (.ok v) (some mem) o = none
    simp only [decode, hfr]; rw [← hfr, hrun]
  | unsup => trivial

/-- What `Decode` does, given the outcome of the reading of the document as a value of the type. -/
def Reads (x : Ext) (ty : Ty) (mem : Block) (res : Option DecodeRes) : R Val → Prop
  | .ok V => ∃ r mem', res = some r ∧ r.errIndex = -1 ∧ r.err = none ∧ r.mem = some mem' ∧ mem'.length = mem.length ∧ Holds x ty mem' 0 V
  | .err i e V => ∃ r mem', res = some r ∧ r.errIndex = i ∧ r.err = some e ∧ r.mem = some mem' ∧ mem'.length = mem.length ∧ Holds x ty mem' 0 V
  | .crash => res = none
  | .unsup => True

theorem decode_reads {x : Ext} {ty : Ty} {d : Decoder} (h : Ready x ty d) {src : Bytes} {v : JVal} {mem : Block} {o : Option Options} {V : Val}
    (hl : mem.length = ty.size x) (hV : Holds x ty mem 0 V) (hne : decTop x src o ty v mem 0 ≠ .unsup) :
    Reads x ty mem (decode x d src (.ok v) (some mem) o) (decTopV x src o ty v V) := by
  have hrel := decTop_rel (src := src) (o := o) ty h.ok v mem 0 V hV
  have hex := decode_exact h (src := src) (v := v) (o := o) hl hV
  cases hb : decTop x src o ty v mem 0 <;> rw [hb] at hex hrel <;> first | exact absurd hb hne | skip
  all_goals cases hv : decTopV x src o ty v V <;> rw [hv] at hrel <;> first | exact hrel.elim | skip
  · obtain ⟨d', hd⟩ := hex
    exact ⟨_, _, hd, rfl, rfl, rfl, hrel.2.1, hrel.1⟩
  · obtain ⟨d', hd⟩ := hex
    obtain ⟨rfl, rfl, r1, r2⟩ := hrel
    exact ⟨_, _, hd, rfl, rfl, rfl, r2.1, r1⟩
  · exact hex

end Verif.Proof.Reads

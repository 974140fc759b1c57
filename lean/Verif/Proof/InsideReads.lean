import Verif.Proof.InsideVal
import Verif.Proof.SimInsideRoot
import Verif.Proof.Reads
import Verif.Proof.Unique
/-!
# Recursive struct types inside other types: what `Decode` does
-/
namespace Verif.Proof.Inside
open Verif.Model Verif.Big Verif.Spec Verif.Proof Verif.Proof.Sim Verif.Proof.Types Verif.Proof.Val Verif.Proof.Term Verif.Proof.Reads

/-- What holds of a decoder between calls. -/
structure InsideReady (x : Ext) (ty : RTy) (d : Decoder) : Prop where
  root : ∃ f fr, d.frames = f :: fr ∧ f.parent = none ∧ f.size = ty.size x ∧ RepX x (f :: fr) ty 0
  ok : OKX x ty
  dyn : DynOK d.frames d.dyn
  idle : Idle d.frames d.dyn
  offset : (d.dyn 0).offset = 0

/-- The root frame has the size of the type. -/
theorem repX_size {x : Ext} {fr : List Frame} : ∀ {ty : RTy} {b : Nat}, RepX x fr ty b → ∃ f, fr[b]? = some f ∧ f.size = ty.size x
  | .plain t, b, h => by obtain ⟨f, h1, -, h2⟩ := Rep.frame (ty := t) h; exact ⟨f, h1, h2⟩
  | .self _ _, b, h => by obtain ⟨f, h1, -, h2, -⟩ := h; exact ⟨f, h1, h2⟩
  | .array _ _, b, h => by obtain ⟨⟨f, h1, -, h2⟩, -⟩ := h; exact ⟨f, h1, h2⟩
  | .slice _, b, h => by obtain ⟨⟨f, h1, -, h2⟩, -⟩ := h; exact ⟨f, h1, h2⟩
  | .map _ _, b, h => by obtain ⟨⟨f, h1, -, h2, -⟩, -⟩ := h; exact ⟨f, h1, h2⟩
  | .struct _ _, b, h => by obtain ⟨f, h1, -, h2, -⟩ := h; exact ⟨f, h1, h2⟩

theorem fresh_idle (fr : List Frame) : Idle fr (freshDyn fr) := by
  intro i f hf _
  simp [freshDyn, hf]

theorem new_ready {env : TypeEnv} {x : Ext} {opts : Option InitOptions} {depth : Nat} {t : TypeId} {ty : RTy} (h : InsideType env x opts depth t ty)
    {d : Decoder} (hd : newDecoder env x.W opts depth (some t) = .ok d) : InsideReady x ty d := by
  obtain ⟨hL, allow, seen, hopt, htr⟩ := h
  obtain ⟨root, tl, hb⟩ := rty_built hL hopt depth [] t ty seen [] htr (by intro f hf; simp at hf)
  have happ := hb.app
  simp only [List.nil_append] at happ
  simp only [newDecoder, happ, NewRes.ok.injEq] at hd
  subst hd
  have hrep := hb.rep (root :: tl) root (Variant.refl root) (by simp) (fun i f hi => by simp only [List.length_nil, Nat.zero_add]; rw [Nat.add_comm]; simpa using hi)
  obtain ⟨f, hf, hsz⟩ := repX_size hrep
  simp at hf; subst hf
  refine ⟨⟨root, tl, rfl, hb.parent, hsz, hrep⟩, hb.ok, fresh_dynOK _, fresh_idle _, ?_⟩
  simp [freshDyn, hb.offset]

theorem resetDests_idle {fr : List Frame} {dy : Nat → Dyn} (h : Idle fr dy) : Idle fr (resetDests dy) :=
  h.congr fun _ _ _ _ => ⟨rfl, rfl⟩

theorem init_idle {fr : List Frame} {dy : Nat → Dyn} (h : Idle fr dy) (mem : Block) : Idle fr (initSt dy mem).dyn := by
  refine h.congr fun i f _ _ => ?_
  simp only [initSt, upd]
  split
  · rename_i hi; subst hi; exact ⟨rfl, rfl⟩
  · exact ⟨rfl, rfl⟩

theorem InsideReady.next {x : Ext} {ty : RTy} {d : Decoder} (h : InsideReady x ty d) {dy : Nat → Dyn} (hd : DynOK d.frames dy) (h1 : Idle d.frames dy) (h2 : (dy 0).offset = 0)
    (n : Nat) : InsideReady x ty { d with dyn := resetDests dy, calls := n } :=
  ⟨h.root, h.ok, resetDests_dynOK hd, resetDests_idle h1, h2⟩

theorem decode_inside {x : Ext} {ty : RTy} {d : Decoder} (h : InsideReady x ty d) {src : Bytes} {v : JVal} {mem : Block} {o : Option Options} {V : Val} {n : Nat}
    (ht : TameDocX x src o n ty v) (hV : Dest x (ty.ty n) mem V) :
    Exact (decode x d src (.ok v) (some mem) o) (decX x src o n ty v mem 0) ∧
    ∀ r, decode x d src (.ok v) (some mem) o = some r → (∃ b, decX x src o n ty v mem 0 = .ok b) → InsideReady x ty r.dec := by
  obtain ⟨f, fr, hfr, hp, hsz, hrep⟩ := h.root
  obtain ⟨hl, hV⟩ := hV
  rw [ty_size] at hl
  have hf : d.frames[0]? = some f := by rw [hfr]; rfl
  have hpre : Pre { x := x, src := src, toks := flatten 0 v, frames := d.frames, options := o, epoch := d.calls } (initSt d.dyn mem) 0 [] 0 mem v [] := by
    refine ⟨rfl, rfl, ?_, by simp [initSt], rfl, init_dynOK h.dyn mem⟩
    simp [initSt, upd, Ptr.add, h.offset]
  have hsim := top_inside (pr := { x := x, src := src, toks := flatten 0 v, frames := d.frames, options := o, epoch := d.calls }) (ty := ty) (n := n) (by rw [hfr]; exact hrep) hf hp hpre
    (init_idle h.idle mem) (by simp [initSt, upd, h.offset]) ht
  have hrel := decX_rel (src := src) (o := o) n ty h.ok v mem 0 V hV
  have hstop := run_stops (pr := { x := x, src := src, toks := flatten 0 v, frames := d.frames, options := o, epoch := d.calls }) (tokOK_flatten v) d.dyn mem
  simp only [] at hsim
  cases hb : decX x src o n ty v mem 0 with
  | ok b' =>
    rw [hb] at hsim hrel
    obtain ⟨s', k1, k2, k3, k4, k5⟩ := hsim
    have hlen' : b'.length = mem.length := by
      cases hv : decXV x src o n ty v V with
      | ok V' => rw [hv] at hrel; exact hrel.2.1
      | err _ _ _ | crash | unsup => rw [hv] at hrel; exact hrel.elim
    have hrun := k1.unique hstop
    simp only [putBlock, Option.some.injEq] at k2
    have hdest : (s'.dyn 0).dest = .at ⟨[], 0⟩ := by rw [k3]; simp [initSt, upd]
    have hrd : (readSeg s'.mem (s'.dyn 0).dest f.size).bind (fun b => blit s'.mem 0 b) = some s'.mem := by
      rw [hdest, hsz]
      have hlen : s'.mem.length = ty.size x := by rw [← k2, hlen', hl]
      simp only [readSeg, getBlock, Option.bind_some, Nat.zero_add, hlen, Nat.le_refl, if_pos, List.drop_zero]
      rw [List.take_of_length_le (by omega)]
      exact blit_self _
    have heq : decode x d src (.ok v) (some mem) o = some ⟨-1, none, some b', { d with dyn := resetDests s'.dyn, calls := d.calls + 1 }⟩ := by
      simp only [decode, hfr]; rw [← hfr, hrun]; simp only [hrd]; rw [← k2]
    refine ⟨⟨_, heq⟩, fun r hr _ => ?_⟩
    rw [heq] at hr; cases hr
    refine h.next k4 k5 ?_ _
    rw [k3]; simp [initSt, upd, h.offset]
  | err i e b' =>
    rw [hb] at hsim
    obtain ⟨s', k1, k2, k3⟩ := hsim
    have hrun := k1.unique hstop
    simp only [putBlock, Option.some.injEq] at k2
    refine ⟨⟨_, by simp only [decode, hfr]; rw [← hfr, hrun]; simp only []; rw [← k2]⟩, ?_⟩
    rintro r - ⟨b, hc⟩; cases hc
  | crash =>
    rw [hb] at hsim
    have hrun := Halts.unique hsim hstop
    refine ⟨?_, by rintro r - ⟨b, hc⟩; cases hc⟩
    show decode x d src (.ok v) (some mem) o = none
    simp only [decode, hfr]; rw [← hfr, hrun]
  | unsup => exact ⟨trivial, by rintro r - ⟨b, hc⟩; cases hc⟩

theorem decoder_ready {x : Ext} {ty : RTy} {d : Decoder} (h : InsideDecoder x ty d) : InsideReady x ty d := by
  induction h with
  | new h1 h2 => exact new_ready h1 h2
  | @refused d src doc t o r _ hr hd ih =>
    cases t with
    | none => simp only [decode, Option.some.injEq] at hd; subst hd; exact ih.next ih.dyn ih.idle ih.offset _
    | some mem =>
      obtain hr | ⟨i, c, rfl⟩ := hr
      · cases hr
      · simp only [decode] at hd
        split at hd
        · cases hd
        · cases hd
          exact ih.next (init_dynOK ih.dyn mem) (init_idle ih.idle mem) (by simp [initSt, upd, ih.offset]) _
  | @call d src v mem o r n V _ ht hV hd he ih =>
    obtain ⟨h1, h2⟩ := decode_inside ih ht hV
    refine h2 r hd ?_
    have hs := h1
    rw [hd] at hs
    cases hb : decX x src o n ty v mem 0 with
    | ok b => exact ⟨b, rfl⟩
    | err i e b => rw [hb] at hs; obtain ⟨d', hs⟩ := hs; cases hs; cases he
    | crash => rw [hb] at hs; cases hs
    | unsup => exact absurd hb (decDoc_ne ht mem 0)

theorem decode_reads {x : Ext} {ty : RTy} {d : Decoder} (h : InsideDecoder x ty d) {src : Bytes} {v : JVal} {mem : Block} {o : Option Options} {V : Val} {n : Nat}
    (ht : TameDocX x src o n ty v) (hV : Dest x (ty.ty n) mem V) :
    Reads x (ty.ty n) mem (decode x d src (.ok v) (some mem) o) (decXV x src o n ty v V) := by
  have hr := decoder_ready h
  have hrel := decX_rel (src := src) (o := o) n ty hr.ok v mem 0 V hV.2
  have hex := (decode_inside hr ht hV).1
  have hne := decDoc_ne ht mem 0
  cases hb : decX x src o n ty v mem 0 <;> rw [hb] at hex hrel <;> first | exact absurd hb hne | skip
  all_goals cases hv : decXV x src o n ty v V <;> rw [hv] at hrel <;> first | exact hrel.elim | skip
  · obtain ⟨d', hd⟩ := hex
    exact ⟨_, _, hd, rfl, rfl, rfl, hrel.2.1, hrel.1⟩
  · obtain ⟨d', hd⟩ := hex
    obtain ⟨rfl, rfl, r1, r2⟩ := hrel
    exact ⟨_, _, hd, rfl, rfl, rfl, r2.1, r1⟩
  · exact hex

/-- What `Decode` does with a document: the reading of the unrolled type, except for the value left behind by an error. -/
theorem outcome {x : Ext} {ty : RTy} {d : Decoder} (hd : InsideDecoder x ty d) {src : Bytes} {v : JVal} {mem : Block} {V : Val} {n : Nat}
    (hm : Dest x (ty.ty n) mem V) {o : Option Options} (ht : TameDocX x src o n ty v) :
    match decV x src o (ty.ty n) v V with
    | .ok V' => Returns x (ty.ty n) (decode x d src (.ok v) (some mem) o) (-1) none V'
    | .err i e _ => ∃ V', Returns x (ty.ty n) (decode x d src (.ok v) (some mem) o) i (some e) V'
    | .crash => decode x d src (.ok v) (some mem) o = none
    | .unsup => False := by
  have hr := decoder_ready hd
  have h := decode_reads hd ht hm
  have hrel := decX_rel (src := src) (o := o) n ty hr.ok v mem 0 V hm.2
  have hne := decDoc_ne ht mem 0
  have hl := decDoc_like ht V
  cases hc : decXV x src o n ty v V with
  | ok V' =>
    rw [hc] at h hl
    rw [show decV x src o (ty.ty n) v V = .ok V' from hl]
    obtain ⟨r, m, h1, h2, h3, h4, h5, h6⟩ := h
    exact ⟨r, m, h1, h2, h3, h4, h5.trans hm.1, h6⟩
  | err i e V' =>
    rw [hc] at h hl
    obtain ⟨b, hb⟩ := hl
    rw [hb]
    obtain ⟨r, m, h1, h2, h3, h4, h5, h6⟩ := h
    exact ⟨V', r, m, h1, h2, h3, h4, h5.trans hm.1, h6⟩
  | crash =>
    rw [hc] at h hl
    rw [show decV x src o (ty.ty n) v V = .crash from hl]
    exact h
  | unsup =>
    rw [hc] at hrel
    cases hb : decX x src o n ty v mem 0 <;> rw [hb] at hrel <;> first | exact hrel.elim | exact absurd hb hne

end Verif.Proof.Inside

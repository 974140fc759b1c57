import Verif.Proof.RecIdeal
import Verif.Proof.RecReads
import Verif.Proof.Unique
import Verif.Proof.Unknown
import Verif.Spec.RecSafe
/-!
# Recursive struct types: outcomes of `Decode` by the reading of the unrolled type
-/
namespace Verif.Proof.RecIdeal
open Verif.Model Verif.Spec Verif.Big Verif.Proof.Val Verif.Proof.Means Verif.Proof.Reads

/-- What `Decode` does with a document for a recursive struct type: the reading of the unrolled type, except for the value left behind by an error. -/
theorem outcome {x : Ext} {size : Nat} {fs : RFields} {d : Decoder} (hd : RecDecoder x size fs d) {src : Bytes} {v : JVal} {mem : Block} {V : Val} {n : Nat}
    (hm : Dest x (unroll size fs (n + 1)) mem V) {o : Option Options} (ht : TameR x src o fs n true true v) :
    match decV x src o (unroll size fs (n + 1)) v V with
    | .ok V' => Returns x (unroll size fs (n + 1)) (decode x d src (.ok v) (some mem) o) (-1) none V'
    | .err i e _ => ∃ V', Returns x (unroll size fs (n + 1)) (decode x d src (.ok v) (some mem) o) i (some e) V'
    | .crash => decode x d src (.ok v) (some mem) o = none
    | .unsup => False := by
  have hr := recDecoder_ready hd
  have h := decode_recReads hd ht hm
  have hrel := Val.decR_rel (src := src) (o := o) hr.ok n v mem 0 V hm.2
  have hne := Fragment.decR_ne (size := size) n true true v ht mem 0
  have hl := rec_like (size := size) n true true v ht V
  cases hc : decRV x src o size fs n v V with
  | ok V' =>
    rw [hc] at h hl
    rw [show decV x src o (unroll size fs (n + 1)) v V = .ok V' from hl]
    obtain ⟨r, m, h1, h2, h3, h4, h5, h6⟩ := h
    exact ⟨r, m, h1, h2, h3, h4, h5.trans hm.1, h6⟩
  | err i e V' =>
    rw [hc] at h hl
    obtain ⟨b, hb⟩ := hl
    rw [hb]
    obtain ⟨r, m, h1, h2, h3, h4, h5, h6⟩ := h
    exact ⟨V', r, m, h1, h2, h3, h4, h5.trans hm.1, h6⟩
  | crash =>
    rw [hc] at h hl
    rw [show decV x src o (unroll size fs (n + 1)) v V = .crash from hl]
    exact h
  | unsup =>
    rw [hc] at hrel
    cases hb : decR x src o size fs n v mem 0 <;> rw [hb] at hrel <;> first | exact hrel.elim | exact absurd hb hne

/-- Success means that the reading is one of the type. -/
theorem ok_inv {x : Ext} {size : Nat} {fs : RFields} {d : Decoder} (hd : RecDecoder x size fs d) {src : Bytes} {v : JVal} {mem : Block} {V : Val} {n : Nat}
    (hm : Dest x (unroll size fs (n + 1)) mem V) {o : Option Options} (ht : TameR x src o fs n true true v) {r : DecodeRes} (hr : decode x d src (.ok v) (some mem) o = some r) (he : r.err = none) :
    ∃ V' mem', decV x src o (unroll size fs (n + 1)) v V = .ok V' ∧ r.errIndex = -1 ∧ r.mem = some mem' ∧ Dest x (unroll size fs (n + 1)) mem' V' := by
  have h := outcome hd hm ht
  cases hc : decV x src o (unroll size fs (n + 1)) v V with
  | ok V' =>
    rw [hc] at h
    obtain ⟨r', m, h1, h2, h3, h4, h5⟩ := h
    rw [hr] at h1; cases h1
    exact ⟨V', m, rfl, h2, h4, h5⟩
  | err i e W =>
    rw [hc] at h
    obtain ⟨V', r', m, h1, h2, h3, h4, h5⟩ := h
    rw [hr] at h1; cases h1
    rw [he] at h3; cases h3
  | crash => rw [hc] at h; simp only [] at h; rw [hr] at h; cases h
  | unsup => rw [hc] at h; exact h.elim

theorem returns_ok {x : Ext} {size : Nat} {fs : RFields} {d : Decoder} (hd : RecDecoder x size fs d) {src : Bytes} {v : JVal} {mem : Block} {V V' : Val} {n : Nat}
    (hm : Dest x (unroll size fs (n + 1)) mem V) {o : Option Options} (ht : TameR x src o fs n true true v) (h : decV x src o (unroll size fs (n + 1)) v V = .ok V') :
    Returns x (unroll size fs (n + 1)) (decode x d src (.ok v) (some mem) o) (-1) none V' := by
  have := outcome hd hm ht
  rwa [h] at this

theorem returns_err {x : Ext} {size : Nat} {fs : RFields} {d : Decoder} (hd : RecDecoder x size fs d) {src : Bytes} {v : JVal} {mem : Block} {V W : Val} {i : Nat} {e : Err} {n : Nat}
    (hm : Dest x (unroll size fs (n + 1)) mem V) {o : Option Options} (ht : TameR x src o fs n true true v) (h : decV x src o (unroll size fs (n + 1)) v V = .err i e W) :
    ∃ V', Returns x (unroll size fs (n + 1)) (decode x d src (.ok v) (some mem) o) i (some e) V' := by
  have := outcome hd hm ht
  rwa [h] at this

theorem returns_inv {x : Ext} {size : Nat} {fs : RFields} {d : Decoder} (hd : RecDecoder x size fs d) {src : Bytes} {v : JVal} {mem : Block} {V V' : Val} {n : Nat}
    (hm : Dest x (unroll size fs (n + 1)) mem V) {o : Option Options} (ht : TameR x src o fs n true true v)
    (h : Returns x (unroll size fs (n + 1)) (decode x d src (.ok v) (some mem) o) (-1) none V') : decV x src o (unroll size fs (n + 1)) v V = .ok V' := by
  obtain ⟨r, m, h1, h2, h3, h4, h5⟩ := h
  obtain ⟨W, m', g1, g2, g3, g4⟩ := ok_inv hd hm ht h1 h3
  rw [h4] at g3; cases g3
  rw [g1, Unique.holds_unique _ h5.2 g4.2]

/-! ## Unrolled types -/

theorem each_mem {P : Ty → Bool} {Q : KeyTy → Bool} {fs : RFields} (h : eachField P Q fs = true) : ∀ f ∈ fs, match f.2.2 with
    | .plain t => P t = true
    | .map k => Q k = true
    | _ => True := by
  intro f hf
  have := List.all_eq_true.1 h f hf
  split
  · rename_i e; rw [e] at this; exact this
  · rename_i e; rw [e] at this; exact this
  · trivial

theorem callable_unroll {size : Nat} {fs : RFields} (h : callableR fs = true) : ∀ n, (unroll size fs n).callable = true
  | 0 => rfl
  | n + 1 => by
    have ih := callable_unroll (size := size) h n
    replace h := each_mem h
    show callableF (tyF (unroll size fs n) fs) = true
    generalize unroll size fs n = e at ih
    clear n
    induction fs with
    | nil => rfl
    | cons f fs IH =>
      have hf := h f List.mem_cons_self
      have := IH fun g hg => h g (List.mem_cons_of_mem _ hg)
      obtain ⟨name, off, rf⟩ := f
      simp only [tyF, List.map_cons, callableF, Bool.and_eq_true]
      refine ⟨?_, this⟩
      cases rf with
      | plain t => exact hf
      | ptr => exact ih
      | slice => exact ih
      | map k => simp only [RField.ty, Ty.callable, Bool.and_eq_true]; exact ⟨hf, ih⟩

theorem noQuoted_unroll {size : Nat} {fs : RFields} (h : noQuotedNumR fs = true) : ∀ n, (unroll size fs n).noQuotedNum = true
  | 0 => rfl
  | n + 1 => by
    have ih := noQuoted_unroll (size := size) h n
    replace h := each_mem h
    show noQuotedNumF (tyF (unroll size fs n) fs) = true
    generalize unroll size fs n = e at ih
    clear n
    induction fs with
    | nil => rfl
    | cons f fs IH =>
      have hf := h f List.mem_cons_self
      have := IH fun g hg => h g (List.mem_cons_of_mem _ hg)
      obtain ⟨name, off, rf⟩ := f
      simp only [tyF, List.map_cons, noQuotedNumF, Bool.and_eq_true]
      refine ⟨?_, this⟩
      cases rf with
      | plain t => exact hf
      | ptr => exact ih
      | slice => exact ih
      | map k => simp only [RField.ty, Ty.noQuotedNum, Bool.and_eq_true]; exact ⟨hf, ih⟩

/-! ## Options -/

theorem tameField_mono {x : Ext} {src : Bytes} {o o' : Option Options} {sub sub' : Bool → Bool → JVal → Prop} (hp : ∀ t v, Tame x src o t v → Tame x src o' t v) (hs : ∀ a b v, sub a b v → sub' a b v) {here top : Bool} :
    ∀ (rf : RField) (v : JVal), TameField x src o sub here top rf v → TameField x src o' sub' here top rf v
  | .plain t, v, h => hp t v h
  | .ptr, v, h => fun i ms k hv => hs _ _ _ (h i ms k hv)
  | .slice, v, h => fun i vs k hv j w hj => ⟨(h i vs k hv j w hj).1, hs _ _ _ (h i vs k hv j w hj).2⟩
  | .map k, v, h => fun i ms e hv => by
    obtain ⟨h1, h2, h3, h4, h5⟩ := h i ms e hv
    exact ⟨h1, h2, h3, h4, fun m hm => ⟨(h5 m hm).1, hs _ _ _ (h5 m hm).2⟩⟩

/-- With DisallowUnknownFields fewer spots are reached. -/
theorem tameR_to_strict {x : Ext} {src : Bytes} {o : Options} {fs : RFields} : ∀ (n : Nat) (here top : Bool) (v : JVal), TameR x src (some (lenient o)) fs n here top v → TameR x src (some (strict o)) fs n here top v
  | 0, _, _, _, h => h
  | n + 1, here, top, v, h => by
    intro i ms k hv a m ha o' ho' raw name hr hn
    cases ho'
    have h := h i ms k hv a m ha (lenient o) rfl raw name hr hn
    have hff : findField x (strict o) ((fs.map (·.1)).zipIdx) name = findField x (lenient o) ((fs.map (·.1)).zipIdx) name := rfl
    rw [hff]
    split
    · rename_i j hj
      rw [hj] at h
      intro f hf
      obtain ⟨h1, h2⟩ := h f hf
      exact ⟨tameField_mono (fun t v => Unknown.tame_to_strict t) (fun a b v => tameR_to_strict n a b v) f.2.2 m.2 h1, h2⟩
    · exact .inl rfl

end Verif.Proof.RecIdeal

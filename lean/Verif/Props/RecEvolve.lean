import Verif.Proof.EvolveRec
import Verif.Props.Evolve
import Verif.Props.RecTypes
/-!
# C68 for recursive struct types
-/
namespace Verif.Props
open Verif.Model Verif.Spec Verif.Big Verif.Proof Verif.Proof.Reads Verif.Proof.Demo Verif.Proof.Outcome Verif.Proof.Unique

/-- **C68** for recursive struct types, which may get new fields and whose fields' types may get new fields: a document that does not mention new fields gives the same error at the same index and, after success, the same values in the old
fields; and it panics only if it panics with the old type. The values left by errors are not compared. -/
theorem C68_recursive_partial {x : Ext} {s s' : Nat} {fs : ERFields} {d d' : Decoder} (hd : RecDecoder x s (oldER fs) d) (hd' : RecDecoder x s' (newER fs) d') {src : Bytes} {v : JVal} {o : Options} (hw : Wf src v) {n : Nat}
    (hu : Unaware x src o (unrollE s s' fs (n + 1)) v) (ht : TameR x src (some o) (oldER fs) n true true v) {mem mem' : Block} {V W : Val}
    (hm : Dest x (unroll s (oldER fs) (n + 1)) mem V) (hm' : Dest x (unroll s' (newER fs) (n + 1)) mem' W) (hs : Sees (unrollE s s' fs (n + 1)) V W) :
    (∀ i er V', Returns x (unroll s (oldER fs) (n + 1)) (decode x d src (.ok v) (some mem) (some o)) i er V' →
      ∃ W', Returns x (unroll s' (newER fs) (n + 1)) (decode x d' src (.ok v) (some mem') (some o)) i er W' ∧ (er = none → Sees (unrollE s s' fs (n + 1)) V' W')) ∧
    (∀ i er W', Returns x (unroll s' (newER fs) (n + 1)) (decode x d' src (.ok v) (some mem') (some o)) i er W' →
      ∃ V', Returns x (unroll s (oldER fs) (n + 1)) (decode x d src (.ok v) (some mem) (some o)) i er V' ∧ (er = none → Sees (unrollE s s' fs (n + 1)) V' W')) ∧
    (decode x d src (.ok v) (some mem) (some o) = none ↔ decode x d' src (.ok v) (some mem') (some o) = none) := by
  have r := RecIdeal.outcome hd hm ht
  have r' := RecIdeal.outcome hd' hm' (Evolve.tameR_ev (s := s) (s' := s') n true true v hw hu ht)
  have hr := Evolve.dec_vev (unrollE s s' fs (n + 1)) v V W hw hu hs
  rw [Evolve.unrollE_old, Evolve.unrollE_new] at hr
  revert r r'
  revert hr
  generalize decV x src (some o) (unroll s (oldER fs) (n + 1)) v V = a
  generalize decV x src (some o) (unroll s' (newER fs) (n + 1)) v W = b
  intro hr r r'
  cases hr with
  | ok hp =>
    refine ⟨fun i er V' h => ?_, fun i er W' h => ?_, ?_⟩
    · obtain ⟨rfl, rfl, rfl⟩ := returns_unique r h; exact ⟨_, r', fun _ => hp⟩
    · obtain ⟨rfl, rfl, rfl⟩ := returns_unique r' h; exact ⟨_, r, fun _ => hp⟩
    · obtain ⟨_, _, h1, -⟩ := r; obtain ⟨_, _, h2, -⟩ := r'; rw [h1, h2]; simp
  | err hp =>
    obtain ⟨V1, r⟩ := r
    obtain ⟨V2, r'⟩ := r'
    refine ⟨fun i er V' h => ?_, fun i er W' h => ?_, ?_⟩
    · obtain ⟨rfl, rfl, rfl⟩ := returns_unique r h; exact ⟨_, r', fun h => by cases h⟩
    · obtain ⟨rfl, rfl, rfl⟩ := returns_unique r' h; exact ⟨_, r, fun h => by cases h⟩
    · obtain ⟨_, _, h1, -⟩ := r; obtain ⟨_, _, h2, -⟩ := r'; rw [h1, h2]; simp
  | crash =>
    refine ⟨fun i er V' h => ?_, fun i er W' h => ?_, ⟨fun _ => r', fun _ => r⟩⟩
    · obtain ⟨_, _, h1, -⟩ := h; rw [r] at h1; cases h1
    · obtain ⟨_, _, h1, -⟩ := h; rw [r'] at h1; cases h1
  | unsup => exact r.elim

/-! ## Examples -/

/-- `P = struct{Next *P; V int}` becomes `D = struct{Next *D; Note string; V int; Kids []D}`. -/
def grownList : ERFields := [(b!"Next", 0, 0, false, .ptr), (b!"Note", 0, 8, true, .plain (.same (.scalar .str))), (b!"V", 8, 24, false, .plain (.same (.scalar (.int .int)))), (b!"Kids", 0, 32, true, .slice)]

theorem grownList_old : oldER grownList = demoFields 40 := rfl
theorem grownList_new : newER grownList = demoFields 121 := rfl

/-- The list 1, 2, 3 decodes into both, and the new fields keep their zero values. -/
example : ∃ W', Returns demoX (unroll 56 (newER grownList) 4) (decode demoX (demoDec 121) chain (.ok (demoDoc chain)) (some (zeros 56)) (some defaultOptions)) (-1) none W' ∧
    Sees (unrollE 16 56 grownList 4) (.struct [.ptr (.struct [.ptr (.struct [.nil, .int 3]), .int 2]), .int 1]) W' := by
  obtain ⟨-, hd⟩ := demo_rec (t := 40) (by decide)
  obtain ⟨-, hd'⟩ := demo_rec (t := 121) (by decide)
  have hw := (demo_doc (src := chain) (by decide)).2
  have ht : TameR demoX chain (some defaultOptions) (demoFields 40) 3 true true (demoDoc chain) := tameRB_sound 3 true true _ (by decide)
  have hu : Unaware demoX chain defaultOptions (unrollE 16 56 grownList 4) (demoDoc chain) := unawareB_sound _ hw (by decide)
  have hm : Dest demoX (unroll 16 (demoFields 40) 4) (zeros 16) (zeroV demoX (unroll 16 (demoFields 40) 4)) :=
    ⟨rfl, Val.holds_zeros _ (Val.unroll_ok (recDecoder_ready hd).ok _) (by simp [unroll, Ty.size])⟩
  have hm' : Dest demoX (unroll 56 (demoFields 121) 4) (zeros 56) (zeroV demoX (unroll 56 (demoFields 121) 4)) :=
    ⟨rfl, Val.holds_zeros _ (Val.unroll_ok (recDecoder_ready hd').ok _) (by simp [unroll, Ty.size])⟩
  have hz := Evolve.zero_sees (x := demoX) (unrollE 16 56 grownList 4)
  rw [Evolve.unrollE_old, Evolve.unrollE_new] at hz
  have h1 : Returns demoX (unroll 16 (oldER grownList) 4) (decode demoX (demoDec 40) chain (.ok (demoDoc chain)) (some (zeros 16)) (some defaultOptions)) (-1) none
    (.struct [.ptr (.struct [.ptr (.struct [.nil, .int 3]), .int 2]), .int 1]) := C37_reading_partial hd hm ht
  obtain ⟨W', h2, h3⟩ := (C68_recursive_partial (fs := grownList) hd hd' hw hu ht hm hm' hz).1 _ _ _ h1
  exact ⟨W', h2, h3 rfl⟩

end Verif.Props

import Verif.Proof.RecReads
import Verif.Proof.Demo
/-!
# Recursive types: the concrete program meets the hypotheses of the theorems
-/
namespace Verif.Proof.Demo
open Verif.Model Verif.Big Verif.Spec Verif.Proof.Reads

/-- Checker for `IsNull`. -/
def nullB : JVal → Bool
  | .null _ _ => true
  | _ => false

theorem nullB_iff {v : JVal} : nullB v = false → ¬ IsNull v := by
  rintro h ⟨i, e, rfl⟩; cases h

/-- Checker for `enters`. -/
def entersB : RField → JVal → Bool
  | .ptr, .obj _ _ _ => true
  | .slice, .arr _ vs _ => !vs.isEmpty
  | .map _, .obj _ _ _ => true
  | _, _ => false

theorem entersB_iff {f : RField} {v : JVal} (h : enters f v) : entersB f v = true := by
  cases f <;> cases v <;> simp_all [enters, entersB]

/-- Checker for `TameField`. -/
def tameFieldB (x : Ext) (src : Bytes) (o : Options) (sub : Bool → Bool → JVal → Bool) (here top : Bool) : RField → JVal → Bool
  | .plain t, v => tameB x src o t v
  | .ptr, v =>
    match v with
    | .obj _ _ _ => sub true top v
    | _ => true
  | .slice, v =>
    match v with
    | .arr _ vs _ => vs.zipIdx.all fun w => !nullB w.1 && sub (w.2 == 0) (w.2 == 0) w.1
    | _ => true
  | .map k, v =>
    match v with
    | .obj _ ms _ => here && top && k != .other && !ms.isEmpty && ms.all fun m => !nullB m.2 && sub true true m.2
    | _ => true

/-- Checker for `TameR`. -/
def tameRB (x : Ext) (src : Bytes) (o : Options) (fs : RFields) : Nat → Bool → Bool → JVal → Bool
  | 0, _, _, _ => false
  | n + 1, here, top, v =>
    match v with
    | .obj _ ms _ => ms.zipIdx.all fun m =>
      match (Model.slice src (m.1.1.1 + 1) (m.1.1.2 - 1)).bind (keyName o) with
      | none => true
      | some name => match findField x o ((fs.map (·.1)).zipIdx) name with
        | some j => match fs[j]? with
          | some f => tameFieldB x src o (tameRB x src o fs n) here top f.2.2 m.1.2 && (here || !entersB f.2.2 m.1.2 || m.2 + 1 == ms.length)
          | none => true
        | none => o.disallowUnknownFields || !hasObj m.1.2
    | _ => true

theorem tameFieldB_sound {x : Ext} {src : Bytes} {o : Options} {sub : Bool → Bool → JVal → Bool} {sub' : Bool → Bool → JVal → Prop} (hs : ∀ a b v, sub a b v = true → sub' a b v) {here top : Bool} :
    ∀ {f : RField} {v : JVal}, tameFieldB x src o sub here top f v = true → TameField x src (some o) sub' here top f v := by
  intro f v h
  cases f with
  | plain t => exact tameB_sound t h
  | ptr =>
    rintro i ms k rfl
    exact hs _ _ _ h
  | slice =>
    rintro i vs k rfl j w hj
    simp only [tameFieldB, List.all_eq_true] at h
    have := h (w, j) (List.mem_zipIdx_iff_getElem?.2 hj)
    simp only [Bool.and_eq_true, Bool.not_eq_true'] at this
    exact ⟨nullB_iff this.1, hs _ _ _ this.2⟩
  | map k =>
    rintro i ms e rfl
    simp only [tameFieldB, Bool.and_eq_true, List.all_eq_true, bne_iff_ne, Bool.not_eq_true', List.isEmpty_eq_false_iff] at h
    exact ⟨h.1.1.1.1, h.1.1.1.2, h.1.1.2, h.1.2, fun m hm => ⟨nullB_iff (h.2 m hm).1, hs _ _ _ (h.2 m hm).2⟩⟩

theorem tameRB_sound {x : Ext} {src : Bytes} {o : Options} {fs : RFields} : ∀ (n : Nat) (here top : Bool) (v : JVal), tameRB x src o fs n here top v = true → TameR x src (some o) fs n here top v
  | 0, _, _, _, h => by cases h
  | n + 1, here, top, v, h => by
    rintro i ms k rfl a m hm o' ho raw name hr hk
    cases ho
    simp only [tameRB, List.all_eq_true] at h
    have := h (m, a) (List.mem_zipIdx_iff_getElem?.2 hm)
    simp only [hr, hk, Option.bind_some] at this
    cases hf : findField x o ((fs.map (·.1)).zipIdx) name with
    | none => simpa [hf] using this
    | some j =>
      intro f hfj
      simp only [hf, hfj, Bool.and_eq_true, Bool.or_eq_true, Bool.not_eq_true', beq_iff_eq] at this
      refine ⟨tameFieldB_sound (tameRB_sound n) this.1, fun h1 h2 => ?_⟩
      rcases this.2 with (h | h) | h
      · rw [h1] at h; cases h
      · rw [entersB_iff h2] at h; cases h
      · exact h

/-- The fields of a recursive type of the program. -/
def demoFields (t : TypeId) : RFields :=
  match recFields demoEnv true 19 t [t] (demoEnv t).fields with
  | some (fs, _) => fs
  | none => []

/-- The concrete program has recursive types. -/
theorem demo_rec {t : TypeId} (h : ((recFields demoEnv true 19 t [t] (demoEnv t).fields).isSome && !(demoEnv t).implJSON && !(demoEnv t).implText && (demoEnv t).kind == .struct &&
      decide (0 < (demoEnv t).size) && (demoFields t).any (fun f => RField.recursive f.2.2)) = true) :
    RecType demoEnv demoX (some defaultInitOptions) 19 t (demoEnv t).size (demoFields t) ∧ RecDecoder demoX (demoEnv t).size (demoFields t) (demoDec t) := by
  simp only [Bool.and_eq_true, Bool.not_eq_true', decide_eq_true_eq, beq_iff_eq] at h
  obtain ⟨⟨⟨⟨⟨h1, h2⟩, h3⟩, h4⟩, h5⟩, h6⟩ := h
  obtain ⟨⟨fs, seen⟩, h1⟩ := Option.isSome_iff_exists.1 h1
  have hfs : demoFields t = fs := by simp only [demoFields, h1]
  have hr : RecType demoEnv demoX (some defaultInitOptions) 19 t (demoEnv t).size (demoFields t) :=
    ⟨demo_layout, h2, h3, h4, rfl, h5, ⟨true, seen, fun _ => ⟨_, rfl, rfl⟩, by rw [hfs]; exact h1⟩, h6⟩
  refine ⟨hr, ?_⟩
  obtain ⟨f, fr, hb, -⟩ := Types.rec_built hr
  have hn : ∃ d, newDecoder demoEnv demoX.W (some defaultInitOptions) 20 (some t) = .ok d := by
    simp only [newDecoder, hb]; exact ⟨_, rfl⟩
  obtain ⟨d, hd⟩ := hn
  have : demoDec t = d := by simp [demoDec, demoNew, hd]
  rw [this]; exact .new hr hd

end Verif.Proof.Demo

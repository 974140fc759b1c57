import Verif.Proof.InsideMeans
import Verif.Proof.RecDemo
/-!
# Recursive struct types inside other types: the concrete program meets the hypotheses of the theorems
-/
namespace Verif.Proof.Demo
open Verif.Model Verif.Big Verif.Spec Verif.Proof.Inside Verif.Proof.Types

mutual
/-- Checker for `TameX`. -/
def tameXB (x : Ext) (src : Bytes) (o : Options) (n : Nat) : RTy → Bool → JVal → Bool
  | .plain t, _ => tameB x src o t
  | .self _ fs, zero => tameRB x src o fs n zero zero
  | .array m e, _ => fun v =>
    match v with
    | .arr _ vs _ => (!e.isSelf || vs.isEmpty) && (vs.take m).all (tameXB x src o n e false)
    | _ => true
  | .slice e, _ => fun v =>
    match v with
    | .arr _ vs _ => (!e.isSelf || vs.isEmpty) && vs.all (tameXB x src o n e false)
    | _ => true
  | .map k e, _ => fun v =>
    match v with
    | .obj _ ms _ => (k != .other || ms.isEmpty) && ms.all fun m => tameXB x src o n e true m.2
    | _ => true
  | .struct _ fs, _ => fun v =>
    match v with
    | .obj _ ms _ => ms.all fun m =>
        match (Model.slice src (m.1.1 + 1) (m.1.2 - 1)).bind (keyName o) with
        | none => true
        | some name => match findField x o ((fs.map (·.1)).zipIdx) name with
          | some j => match (tameXFB x src o n fs)[j]? with
            | some T => T m.2
            | none => true
          | none => o.disallowUnknownFields || !hasObj m.2
    | _ => true
/-- The fields of a struct. -/
def tameXFB (x : Ext) (src : Bytes) (o : Options) (n : Nat) : List (Bytes × Nat × RTy) → List (JVal → Bool)
  | [] => []
  | (_, fo, t) :: fs => tameXB x src o n t (fo == 0) :: tameXFB x src o n fs
end

mutual
theorem tameXB_sound {x : Ext} {src : Bytes} {o : Options} {n : Nat} : ∀ (ty : RTy) (z : Bool) {v : JVal}, tameXB x src o n ty z v = true → TameX x src (some o) n ty z v
  | .plain t, z, v, h => tameB_sound t h
  | .self _ fs, z, v, h => tameRB_sound n z z v h
  | .array m e, z, v, h => by
    cases v <;> simp only [TameX, tameXB] at h ⊢
    simp only [Bool.and_eq_true, List.all_eq_true, Bool.or_eq_true, Bool.not_eq_true', List.isEmpty_iff] at h
    refine ⟨fun hs => ?_, fun w hw => tameXB_sound e false (h.2 w hw)⟩
    rcases h.1 with h | h
    · rw [hs] at h; cases h
    · exact h
  | .slice e, z, v, h => by
    cases v <;> simp only [TameX, tameXB] at h ⊢
    simp only [Bool.and_eq_true, List.all_eq_true, Bool.or_eq_true, Bool.not_eq_true', List.isEmpty_iff] at h
    refine ⟨fun hs => ?_, fun w hw => tameXB_sound e false (h.2 w hw)⟩
    rcases h.1 with h | h
    · rw [hs] at h; cases h
    · exact h
  | .map k e, z, v, h => by
    cases v <;> simp only [TameX, tameXB] at h ⊢
    simp only [Bool.and_eq_true, List.all_eq_true, Bool.or_eq_true, bne_iff_ne, List.isEmpty_iff] at h
    refine ⟨fun hs => ?_, fun w hw => tameXB_sound e true (h.2 w hw)⟩
    rcases h.1 with h | h
    · exact absurd hs h
    · exact h
  | .struct _ fs, z, v, h => by
    cases v <;> simp only [TameX, tameXB] at h ⊢
    rintro m hm o' ho raw name hr hk
    cases ho
    simp only [List.all_eq_true] at h
    have := h m hm
    simp only [hr, hk, Option.bind_some] at this
    cases hf : findField x o ((fs.map (·.1)).zipIdx) name with
    | none => simpa [hf] using this
    | some j =>
      intro T hT
      obtain ⟨T', hT', himp⟩ := tameXFB_sound fs hT
      simp only [hf, hT'] at this
      exact himp _ this
theorem tameXFB_sound {x : Ext} {src : Bytes} {o : Options} {n : Nat} : ∀ (fs : List (Bytes × Nat × RTy)) {j : Nat} {T : JVal → Prop}, (TameXF x src (some o) n fs)[j]? = some T →
    ∃ T', (tameXFB x src o n fs)[j]? = some T' ∧ ∀ v, T' v = true → T v
  | [], _, _, h => by simp [TameXF] at h
  | (_, fo, t) :: fs, 0, T, h => by
    simp only [TameXF, List.getElem?_cons_zero, Option.some.injEq] at h
    subst h
    exact ⟨_, by simp only [tameXFB, List.getElem?_cons_zero], fun v => tameXB_sound t _⟩
  | (_, fo, t) :: fs, j + 1, T, h => by
    simp only [TameXF, List.getElem?_cons_succ] at h
    obtain ⟨T', h1, h2⟩ := tameXFB_sound fs h
    exact ⟨T', by simpa only [tameXFB, List.getElem?_cons_succ] using h1, h2⟩
end

/-- Checker for `TameDocX`. -/
def tameDocXB (x : Ext) (src : Bytes) (o : Options) (n : Nat) : RTy → JVal → Bool
  | .slice (.self _ fs) => fun v =>
    match v with
    | .arr _ vs _ => vs.zipIdx.all fun w => tameRB x src o fs n (w.2 == 0) (w.2 == 0) w.1
    | _ => true
  | t => tameXB x src o n t true

theorem tameDocXB_sound {x : Ext} {src : Bytes} {o : Options} {n : Nat} : ∀ (ty : RTy) {v : JVal}, tameDocXB x src o n ty v = true → TameDocX x src (some o) n ty v
  | .slice (.self _ fs), v, h => by
    cases v <;> simp only [TameDocX, tameDocXB] at h ⊢
    intro j w hj
    simp only [List.all_eq_true] at h
    exact tameRB_sound n _ _ _ (h (w, j) (List.mem_zipIdx_iff_getElem?.2 hj))
  | .plain _, _, h | .self _ _, _, h | .array _ _, _, h | .map _ _, _, h | .struct _ _, _, h => tameXB_sound _ true h
  | .slice (.plain _), _, h | .slice (.array _ _), _, h | .slice (.slice _), _, h | .slice (.map _ _), _, h | .slice (.struct _ _), _, h => tameXB_sound _ true h

/-- The tree of a type of the program. -/
def demoRTy (t : TypeId) : RTy :=
  match rtyTree demoEnv true 20 [] t with
  | some (ty, _) => ty
  | none => .plain .any

/-- The concrete program has types with recursive struct types inside. -/
theorem demo_inside {t : TypeId} (h : (rtyTree demoEnv true 20 [] t).isSome = true) :
    InsideType demoEnv demoX (some defaultInitOptions) 20 t (demoRTy t) ∧ InsideDecoder demoX (demoRTy t) (demoDec t) := by
  obtain ⟨⟨ty, seen⟩, h1⟩ := Option.isSome_iff_exists.1 h
  have hty : demoRTy t = ty := by simp only [demoRTy, h1]
  have hr : InsideType demoEnv demoX (some defaultInitOptions) 20 t (demoRTy t) :=
    ⟨demo_layout, true, seen, fun _ => ⟨_, rfl, rfl⟩, by rw [hty]; exact h1⟩
  refine ⟨hr, ?_⟩
  obtain ⟨root, tl, hb⟩ := rty_built demo_layout (x := demoX) (allow := true) (opts := some defaultInitOptions) (fun _ => ⟨_, rfl, rfl⟩) 20 [] t ty seen [] h1 (by intro f hf; simp at hf)
  have hn : ∃ d, newDecoder demoEnv demoX.W (some defaultInitOptions) 20 (some t) = .ok d := by
    simp only [newDecoder, hb.app]; exact ⟨_, rfl⟩
  obtain ⟨d, hd⟩ := hn
  have : demoDec t = d := by simp [demoDec, demoNew, hd]
  rw [this]; exact .new hr hd

end Verif.Proof.Demo

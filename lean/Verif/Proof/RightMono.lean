import Verif.Proof.SimRight
/-!
# What may stand inside a document may stand at its end
-/
namespace Verif.Proof.Right
open Verif.Model Verif.Spec Verif.Big Verif.Proof.Sim

mutual
theorem right_mono {x : Ext} {src : Bytes} {o : Option Options} : ∀ (ty : Ty) (p : Place) (v : JVal), Right x src o ty .inside v → Right x src o ty p v
  | .array n e, p, v, h => by simpa only [Right] using h
  | .slice e, p, v, h => by simpa only [Right] using h
  | .map k e, p, v, h => by
    cases v with
    | obj i ms z => exact ⟨h.1, ButLast.imp h.2 (fun _ _ h => h) fun m _ h => right_mono e p m.2 h⟩
    | _ => trivial
  | .struct n fs, p, v, h => by
    cases v with
    | obj i ms z =>
      intro o' ho'
      refine ButLast.imp (h o' ho') (fun _ _ h => h) fun m _ h raw name h1 h2 => ?_
      have h3 := h raw name h1 h2
      cases hj : findField x o' ((fs.map (·.1)).zipIdx) name with
      | none => rw [hj] at h3; exact h3
      | some j =>
        rw [hj] at h3
        intro R hR
        exact right_monoF fs j p m.2 R hR (h3 R hR)
    | _ => trivial
  | .emptyStruct, p, v, h => by
    cases v with
    | obj i ms z => cases h
    | _ => trivial
  | .ptr e, p, v, h => by
    cases v with
    | null => trivial
    | _ => exact h.2.elim
  | .scalar _, _, _, _ | .any, _, _, _ | .number, _, _, _ | .quoted _, _, _, _ | .sliceOf _, _, _, _ | .sliceES, _, _, _ | .mapSS, _, _, _ | .jsonU .., _, _, _ | .textU .., _, _, _ | .array0, _, _, _ => trivial
theorem right_monoF {x : Ext} {src : Bytes} {o : Option Options} : ∀ (fs : List (Bytes × Nat × Ty)) (j : Nat) (p : Place) (v : JVal) (R : Place → JVal → Prop), (RightF x src o fs)[j]? = some R → R .inside v → R p v
  | [], j, p, v, R, h, _ => by simp [RightF] at h
  | (n, a, t) :: fs, 0, p, v, R, h, hr => by cases h; exact right_mono t p v hr
  | (n, a, t) :: fs, j + 1, p, v, R, h, hr => right_monoF fs j p v R (by simpa only [RightF, List.getElem?_cons_succ] using h) hr
end

theorem rightM_mono {x : Ext} {src : Bytes} {o : Options} {names : List Bytes} {o' : Option Options} {fs : List (Bytes × Nat × Ty)} {p : Place} {m : (Nat × Nat) × JVal}
    (h : RightM x src o names (RightF x src o' fs) .inside m) : RightM x src o names (RightF x src o' fs) p m := by
  intro raw name h1 h2
  have h3 := h raw name h1 h2
  cases hj : findField x o names.zipIdx name with
  | none => rw [hj] at h3; exact h3
  | some j => rw [hj] at h3; exact fun R hR => right_monoF fs j p m.2 R hR (h3 R hR)

mutual
/-- What may stand at the end of an array may stand at the end of the document. -/
theorem right_last {x : Ext} {src : Bytes} {o : Option Options} : ∀ (ty : Ty) (v : JVal), Right x src o ty .last v → Right x src o ty .final v
  | .array n e, v, h => by simpa only [Right] using h
  | .slice e, v, h => by simpa only [Right] using h
  | .map k e, v, h => by
    cases v with
    | obj i ms z => exact ⟨h.1, ButLast.imp h.2 (fun _ _ h => h) fun m _ h => right_last e m.2 h⟩
    | _ => trivial
  | .struct n fs, v, h => by
    cases v with
    | obj i ms z =>
      intro o' ho'
      refine ButLast.imp (h o' ho') (fun _ _ h => h) fun m _ h raw name h1 h2 => ?_
      have h3 := h raw name h1 h2
      cases hj : findField x o' ((fs.map (·.1)).zipIdx) name with
      | none => rw [hj] at h3; exact h3
      | some j =>
        rw [hj] at h3
        intro R hR
        exact right_lastF fs j m.2 R hR (h3 R hR)
    | _ => trivial
  | .emptyStruct, v, h => by
    cases v with
    | obj i ms z => cases h
    | _ => trivial
  | .ptr e, v, h => by
    cases v with
    | null => trivial
    | _ => exact ⟨h.1, right_mono e .final _ h.2⟩
  | .scalar _, _, _ | .any, _, _ | .number, _, _ | .quoted _, _, _ | .sliceOf _, _, _ | .sliceES, _, _ | .mapSS, _, _ | .jsonU .., _, _ | .textU .., _, _ | .array0, _, _ => trivial
theorem right_lastF {x : Ext} {src : Bytes} {o : Option Options} : ∀ (fs : List (Bytes × Nat × Ty)) (j : Nat) (v : JVal) (R : Place → JVal → Prop), (RightF x src o fs)[j]? = some R → R .last v → R .final v
  | [], j, v, R, h, _ => by simp [RightF] at h
  | (n, a, t) :: fs, 0, v, R, h, hr => by cases h; exact right_last t v hr
  | (n, a, t) :: fs, j + 1, v, R, h, hr => right_lastF fs j v R (by simpa only [RightF, List.getElem?_cons_succ] using h) hr
end

/-- The members at the left. -/
theorem butLast_prefix {α : Type} {P Q : α → Prop} (h : ∀ a, P a → Q a) : ∀ {l r : List α}, ButLast P Q (l ++ r) → ButLast P Q l
  | [], _, _ => trivial
  | [a], [], h' => h'
  | [a], b :: r, h' => h a h'.1
  | a :: b :: l, r, h' => ⟨h'.1, butLast_prefix h (l := b :: l) (r := r) h'.2⟩

end Verif.Proof.Right

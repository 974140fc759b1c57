import Verif.Proof.Demo
import Verif.Proof.SimRight
/-!
# A checker for `Right`
-/
namespace Verif.Proof.Right
open Verif.Model Verif.Big Verif.Spec Verif.Proof

/-- Checker for `ButLast`. -/
def butLastB {α : Type} (P Q : α → Bool) : List α → Bool
  | [] => true
  | [a] => Q a
  | a :: b :: l => P a && butLastB P Q (b :: l)

theorem butLastB_sound {α : Type} {P Q : α → Bool} {P' Q' : α → Prop} (h1 : ∀ a, P a = true → P' a) (h2 : ∀ a, Q a = true → Q' a) : ∀ {l : List α}, butLastB P Q l = true → ButLast P' Q' l
  | [], _ => trivial
  | [_], h => h2 _ h
  | _ :: _ :: _, h => by
    simp only [butLastB, Bool.and_eq_true] at h
    exact ⟨h1 _ h.1, butLastB_sound h1 h2 h.2⟩

/-- Checker for `RightM`. -/
def rightMB (x : Ext) (src : Bytes) (o : Options) (names : List Bytes) (T : List (Place → JVal → Bool)) (p : Place) (m : (Nat × Nat) × JVal) : Bool :=
  match (Model.slice src (m.1.1 + 1) (m.1.2 - 1)).bind (keyName o) with
  | none => true
  | some name => match findField x o names.zipIdx name with
    | some j => match T[j]? with
      | some R => R p m.2
      | none => true
    | none => o.disallowUnknownFields || !hasObj m.2

mutual
/-- Checker for `Right`. -/
def rightB (x : Ext) (src : Bytes) (o : Options) : Ty → Place → JVal → Bool
  | .array n e => fun _ v =>
    match v with
    | .arr _ vs _ => if vs.length ≤ n then butLastB (rightB x src o e .inside) (rightB x src o e .last) vs else (vs.take n).all (rightB x src o e .inside)
    | _ => true
  | .slice e => fun _ v =>
    match v with
    | .arr _ vs _ => butLastB (rightB x src o e .inside) (rightB x src o e .last) vs
    | _ => true
  | .map k e => fun p v =>
    match v with
    | .obj _ ms _ => (k != .other || ms.isEmpty) && butLastB (fun m => rightB x src o e .inside m.2) (fun m => rightB x src o e p m.2) ms
    | _ => true
  | .struct _ fs => fun p v =>
    match v with
    | .obj _ ms _ => butLastB (rightMB x src o (fs.map (·.1)) (rightFB x src o fs) .inside) (rightMB x src o (fs.map (·.1)) (rightFB x src o fs) p) ms
    | _ => true
  | .emptyStruct => fun p v =>
    match v with
    | .obj _ _ _ => p == .final
    | _ => true
  | .ptr e => fun p v =>
    match v with
    | .null _ _ => true
    | v => decide (e.size x ≠ 0) && match p with
      | .inside => false
      | .last => rightB x src o e .inside v
      | .final => rightB x src o e .final v
  | _ => fun _ _ => true
/-- The fields of a struct. -/
def rightFB (x : Ext) (src : Bytes) (o : Options) : List (Bytes × Nat × Ty) → List (Place → JVal → Bool)
  | [] => []
  | (_, _, t) :: fs => rightB x src o t :: rightFB x src o fs
end

mutual
theorem rightB_sound {x : Ext} {src : Bytes} {o : Options} : ∀ (ty : Ty) {p : Place} {v : JVal}, rightB x src o ty p v = true → Right x src (some o) ty p v
  | .array n e, p, v, h => by
    cases v <;> simp only [Right, rightB] at h ⊢
    split at h
    · rename_i hn
      rw [if_pos hn]
      exact butLastB_sound (fun _ => rightB_sound e) (fun _ => rightB_sound e) h
    · rename_i hn
      rw [if_neg hn]
      rw [List.all_eq_true] at h
      exact fun w hw => rightB_sound e (h w hw)
  | .slice e, p, v, h => by
    cases v <;> simp only [Right, rightB] at h ⊢
    exact butLastB_sound (fun _ => rightB_sound e) (fun _ => rightB_sound e) h
  | .map k e, p, v, h => by
    cases v <;> simp only [Right, rightB] at h ⊢
    rw [Bool.and_eq_true] at h
    refine ⟨fun hk => ?_, butLastB_sound (fun m h => rightB_sound e h) (fun m h => rightB_sound e h) h.2⟩
    have := h.1; simp [hk] at this; exact this
  | .struct n fs, p, v, h => by
    cases v <;> simp only [Right, rightB] at h ⊢
    intro o' ho
    cases ho
    have hM : ∀ q (m : (Nat × Nat) × JVal), rightMB x src o (fs.map (·.1)) (rightFB x src o fs) q m = true → RightM x src o (fs.map (·.1)) (RightF x src (some o) fs) q m := by
      intro q m hm raw name hraw hname
      simp only [rightMB, hraw, Option.bind_some, hname] at hm
      split <;> rename_i hf <;> simp only [hf] at hm
      · intro R hR
        obtain ⟨T', hT', himp⟩ := rightFB_sound fs hR
        simp only [hT'] at hm
        exact himp _ _ hm
      · simpa using hm
    exact butLastB_sound (hM _) (hM _) h
  | .emptyStruct, p, v, h => by cases v <;> simp_all [Right, rightB]
  | .ptr e, p, v, h => by
    cases v <;> simp only [Right, rightB, Bool.and_eq_true, decide_eq_true_eq] at h ⊢ <;> cases p <;> simp only [] at h ⊢ <;>
      first | exact ⟨h.1, rightB_sound e h.2⟩ | exact absurd h.2 Bool.false_ne_true
  | .any, p, v, h => trivial
  | .number, p, v, h => trivial
  | .scalar k, p, v, h => trivial
  | .quoted k, p, v, h => trivial
  | .jsonU a b c, p, v, h => trivial
  | .textU a b c, p, v, h => trivial
  | .array0, p, v, h => trivial
  | .sliceOf k, p, v, h => trivial
  | .sliceES, p, v, h => trivial
  | .mapSS, p, v, h => trivial
theorem rightFB_sound {x : Ext} {src : Bytes} {o : Options} : ∀ (fs : List (Bytes × Nat × Ty)) {j : Nat} {R : Place → JVal → Prop}, (RightF x src (some o) fs)[j]? = some R →
    ∃ R', (rightFB x src o fs)[j]? = some R' ∧ ∀ p v, R' p v = true → R p v
  | [], j, R, h => by simp [RightF] at h
  | (a, b, t) :: fs, 0, R, h => by
    simp only [RightF, List.getElem?_cons_zero, Option.some.injEq] at h
    subst h
    exact ⟨_, rfl, fun p v hv => rightB_sound t hv⟩
  | (a, b, t) :: fs, j + 1, R, h => by
    simp only [RightF, List.getElem?_cons_succ] at h
    obtain ⟨T', h1, h2⟩ := rightFB_sound fs h
    exact ⟨T', by simpa only [rightFB, List.getElem?_cons_succ] using h1, h2⟩
end

/-- A type of the program and a document within `RightDoc`. -/
theorem demo_right {t : TypeId} {src : Bytes} {o : Options} (h1 : (typeTree demoEnv true 20 [] t).isSome = true) (h2 : WfB.docB src = true) (h3 : rightB demoX src o (demoTree t) .final (demoDoc src) = true) :
    DecoderFor demoX (demoTree t) (demoDec t) ∧ Wf src (demoDoc src) ∧ RightDoc demoX src (some o) (demoTree t) (demoDoc src) :=
  ⟨Demo.demo_for' h1, (Demo.demo_doc h2).2, rightB_sound _ h3⟩

end Verif.Proof.Right

import Verif.Spec.Demo
import Verif.Spec.Fragment
import Verif.Proof.Session
import Verif.Proof.WfB
/-!
# The concrete program meets the hypotheses of the theorems
-/
namespace Verif.Proof.Demo
open Verif.Model Verif.Big Verif.Spec Verif.Proof.Reads

set_option maxRecDepth 2048 in
set_option maxHeartbeats 1000000 in
theorem demo_layout : Layout demoEnv demoX := by
  intro t
  rcases Nat.lt_or_ge t demoTypes.length with h | h
  · replace h : t < 126 := h
    iterate 126 (rcases t with _ | t; · first | rfl | exact True.intro | exact ⟨by decide, by simp [Layout.FieldsIn, demoEnv, demoTypes]⟩)
    exact absurd h (Nat.not_lt.2 (Nat.le_add_left 126 t))
  · have : demoEnv t = { kind := .other } := by simp only [demoEnv, List.getD_eq_getElem?_getD, List.getElem?_eq_none h, Option.getD_none]
    rw [this]; trivial

/-- Every type of the program with a tree has a decoder. -/
theorem demo_for {t : TypeId} {ty : Ty} {seen : List TypeId} (h : typeTree demoEnv true 20 [] t = some (ty, seen)) : DecoderFor demoX ty (demoDec t) := by
  have ho : true = true → ∃ o, some defaultInitOptions = some o ∧ o.disallowStringTagOptOnUnsupportedTypes = false := fun _ => ⟨_, rfl, rfl⟩
  obtain ⟨d, hd, -⟩ := newDecoder_ready demo_layout ho h
  refine ⟨demoEnv, some defaultInitOptions, 20, some t, d, ⟨demo_layout, true, seen, ho, h⟩, hd, ?_⟩
  have : demoDec t = d := by simp [demoDec, demoNew, hd]
  rw [this]; exact .new

/-- A zeroed destination holds the zero value. -/
theorem zero_dest {x : Ext} {ty : Ty} {d : Decoder} (h : DecoderFor x ty d) : Dest x ty (zeros (ty.size x)) (zeroV x ty) :=
  ⟨by simp [zeros], Proof.Val.holds_zeros ty (decoderFor_ready h).ok (by omega)⟩

mutual
/-- Checker for `Tame`. -/
def tameB (x : Ext) (src : Bytes) (o : Options) : Ty → JVal → Bool
  | .array n e => fun v =>
    match v with
    | .arr _ vs _ => (vs.take n).all (tameB x src o e)
    | _ => true
  | .slice e => fun v =>
    match v with
    | .arr _ vs _ => vs.all (tameB x src o e)
    | _ => true
  | .map k e => fun v =>
    match v with
    | .obj _ ms _ => (k != .other || ms.isEmpty) && ms.all fun m => tameB x src o e m.2
    | _ => true
  | .struct _ fs => fun v =>
    match v with
    | .obj _ ms _ => ms.all fun m =>
        match (Model.slice src (m.1.1 + 1) (m.1.2 - 1)).bind (keyName o) with
        | none => true
        | some name => match findField x o ((fs.map (·.1)).zipIdx) name with
          | some j => match (tameFB x src o fs)[j]? with
            | some T => T m.2
            | none => true
          | none => o.disallowUnknownFields || !hasObj m.2
    | _ => true
  | .emptyStruct => fun v =>
    match v with
    | .obj _ _ _ => false
    | _ => true
  | .ptr _ => fun v =>
    match v with
    | .null _ _ => true
    | _ => false
  | _ => fun _ => true
/-- The fields of a struct. -/
def tameFB (x : Ext) (src : Bytes) (o : Options) : List (Bytes × Nat × Ty) → List (JVal → Bool)
  | [] => []
  | (_, _, t) :: fs => tameB x src o t :: tameFB x src o fs
end

mutual
theorem tameB_sound {x : Ext} {src : Bytes} {o : Options} : ∀ (ty : Ty) {v : JVal}, tameB x src o ty v = true → Tame x src (some o) ty v
  | .array n e, v, h => by
    cases v <;> simp only [Tame, tameB] at h ⊢
    rw [List.all_eq_true] at h
    exact fun w hw => tameB_sound e (h w hw)
  | .slice e, v, h => by
    cases v <;> simp only [Tame, tameB] at h ⊢
    rw [List.all_eq_true] at h
    exact fun w hw => tameB_sound e (h w hw)
  | .map k e, v, h => by
    cases v <;> simp only [Tame, tameB] at h ⊢
    rw [Bool.and_eq_true, List.all_eq_true] at h
    refine ⟨fun hk => ?_, fun w hw => tameB_sound e (h.2 w hw)⟩
    have := h.1; simp [hk] at this; exact this
  | .struct n fs, v, h => by
    cases v <;> simp only [Tame, tameB] at h ⊢
    rw [List.all_eq_true] at h
    intro m hm o' ho raw name hraw hname
    cases ho
    have := h m hm
    simp only [hraw, Option.bind_some, hname] at this
    split <;> rename_i hf <;> simp only [hf] at this
    · intro T hT
      obtain ⟨T', hT', himp⟩ := tameFB_sound fs hT
      simp only [hT'] at this
      exact himp _ this
    · simpa using this
  | .emptyStruct, v, h => by cases v <;> simp_all [Tame, tameB]
  | .ptr e, v, h => by cases v <;> simp_all [Tame, tameB]
  | .any, v, h => trivial
  | .number, v, h => trivial
  | .scalar k, v, h => trivial
  | .quoted k, v, h => trivial
  | .jsonU a b c, v, h => trivial
  | .textU a b c, v, h => trivial
  | .array0, v, h => trivial
  | .sliceOf k, v, h => trivial
  | .sliceES, v, h => trivial
  | .mapSS, v, h => trivial
theorem tameFB_sound {x : Ext} {src : Bytes} {o : Options} : ∀ (fs : List (Bytes × Nat × Ty)) {j : Nat} {T : JVal → Prop}, (TameF x src (some o) fs)[j]? = some T →
    ∃ T', (tameFB x src o fs)[j]? = some T' ∧ ∀ v, T' v = true → T v
  | [], j, T, h => by simp [TameF] at h
  | (a, b, t) :: fs, 0, T, h => by
    simp only [TameF, List.getElem?_cons_zero, Option.some.injEq] at h
    subst h
    exact ⟨_, rfl, fun v hv => tameB_sound t hv⟩
  | (a, b, t) :: fs, j + 1, T, h => by
    simp only [TameF, List.getElem?_cons_succ] at h
    obtain ⟨T', h1, h2⟩ := tameFB_sound fs h
    exact ⟨T', by simpa only [tameFB, List.getElem?_cons_succ] using h1, h2⟩
end

/-- Checker for `TameDoc`. -/
def tameDocB (x : Ext) (src : Bytes) (o : Options) : Ty → JVal → Bool
  | .ptr e => fun v =>
    match v with
    | .null _ _ => true
    | v => decide (e.size x ≠ 0) && tameDocB x src o e v
  | .emptyStruct => fun _ => true
  | ty => fun v => tameB x src o ty v

theorem tameDocB_sound {x : Ext} {src : Bytes} {o : Options} : ∀ (ty : Ty) {v : JVal}, tameDocB x src o ty v = true → TameDoc x src (some o) ty v
  | .ptr e, v, h => by
    cases v <;> simp only [TameDoc, tameDocB, Bool.and_eq_true, decide_eq_true_eq] at h ⊢ <;> exact ⟨h.1, tameDocB_sound e h.2⟩
  | .emptyStruct, _, _ => trivial
  | .any, v, h => tameB_sound _ h
  | .number, v, h => tameB_sound _ h
  | .scalar k, v, h => tameB_sound _ h
  | .quoted k, v, h => tameB_sound _ h
  | .jsonU a b c, v, h => tameB_sound _ h
  | .textU a b c, v, h => tameB_sound _ h
  | .array0, v, h => tameB_sound _ h
  | .sliceOf k, v, h => tameB_sound _ h
  | .sliceES, v, h => tameB_sound _ h
  | .mapSS, v, h => tameB_sound _ h
  | .array n e, v, h => tameB_sound _ h
  | .slice e, v, h => tameB_sound _ h
  | .map k e, v, h => tameB_sound _ h
  | .struct n fs, v, h => tameB_sound _ h

theorem demo_for' {t : TypeId} (h : (typeTree demoEnv true 20 [] t).isSome = true) : DecoderFor demoX (demoTree t) (demoDec t) := by
  obtain ⟨⟨ty, seen⟩, h⟩ := Option.isSome_iff_exists.1 h
  have : demoTree t = ty := by simp only [demoTree, h]
  rw [this]; exact demo_for h

theorem demo_doc {src : Bytes} (h : WfB.docB src = true) : tokenize src = .ok (demoDoc src) ∧ Wf src (demoDoc src) := by
  obtain ⟨v, hv, hw⟩ := WfB.docB_sound h
  have : demoDoc src = v := by simp only [demoDoc, hv]
  rw [this]; exact ⟨hv, hw⟩

/-- For a type of the program with a tree, a text that parses and is tame: everything the theorems about `Decode` ask for. -/
theorem demo_case {t : TypeId} (h : (typeTree demoEnv true 20 [] t).isSome = true) {src : Bytes} (hs : WfB.docB src = true) {o : Options}
    (hb : tameDocB demoX src o (demoTree t) (demoDoc src) = true) :
    DecoderFor demoX (demoTree t) (demoDec t) ∧ Dest demoX (demoTree t) (zeros ((demoTree t).size demoX)) (zeroV demoX (demoTree t)) ∧
      tokenize src = .ok (demoDoc src) ∧ Wf src (demoDoc src) ∧ TameDoc demoX src (some o) (demoTree t) (demoDoc src) :=
  ⟨demo_for' h, zero_dest (demo_for' h), (demo_doc hs).1, (demo_doc hs).2, tameDocB_sound _ hb⟩

end Verif.Proof.Demo

import Verif.Proof.Safe
/-!
# Decoding keeps values well-typed
-/
namespace Verif.Proof.Typed
open Verif.Model Verif.Big Verif.Spec Verif.Proof.Safe

/-- The value of the outcome, if any, satisfies `P`. -/
def Keeps {α : Type} (P : α → Prop) : R α → Prop
  | .ok a => P a
  | .err _ _ a => P a
  | _ => True

theorem Keeps.map {α β : Type} {P : α → Prop} {Q : β → Prop} {f : α → β} {r : R α} (h : Keeps P r) (hf : ∀ a, P a → Q (f a)) : Keeps Q (r.map f) := by
  cases r with
  | ok a => exact hf _ h
  | err i e a => exact hf _ h
  | crash => trivial
  | unsup => trivial

/-- What an action on a value that is not an unmarshaler stores. -/
def Stores (P : Val → Prop) : Act → Prop
  | .store _ c => P (cellV c)
  | .text _ => False
  | _ => True

theorem actV_keeps {P : Val → Prop} {idx : Nat} {z V : Val} {call : Option (Block → Bytes → Block × Option Nat)} {a : Act} (h : Stores P a) (hz : P z) (hV : P V) : Keeps P (actV idx z call V a) := by
  cases a <;> simp only [actV, Keeps, Stores] at * <;> first | assumption | exact h.elim

theorem storeInt_stores {P : Val → Prop} (hP : ∀ i, P (.int i)) (x : Ext) (k : IKind) (s : Bytes) (e : Err) : Stores P (storeInt x k s e) := by
  unfold storeInt
  split <;> first | trivial | exact hP _

theorem storeFlt_stores {P : Val → Prop} (hP : ∀ i, P (.flt i)) (n : Nat) (r : Except Nat Flt) : Stores P (storeFlt n r) := by
  cases r <;> first | trivial | exact hP _

theorem onInteger_stores {x : Ext} {ty : Ty} {s : Bytes} : Stores (HasTy ty) (onInteger x ty.etype s) := by
  cases ty <;> simp only [Ty.etype, onInteger] <;> try trivial
  · split <;> first | trivial | exact ⟨_, rfl⟩
  · exact ⟨_, rfl⟩
  · rename_i k
    cases k with
    | int k =>
      simp only []
      split
      · split
        · trivial
        · split
          · trivial
          · exact storeInt_stores (fun i => ⟨i, rfl⟩) _ _ _ _
      · exact storeInt_stores (fun i => ⟨i, rfl⟩) _ _ _ _
    | flt k => exact storeFlt_stores (fun i => ⟨i, rfl⟩) _ _
    | _ => trivial

theorem onNumber_stores {x : Ext} {ty : Ty} {s : Bytes} : Stores (HasTy ty) (onNumber x ty.etype s) := by
  cases ty <;> simp only [Ty.etype, onNumber] <;> try trivial
  · split <;> first | trivial | exact ⟨_, rfl⟩
  · exact ⟨_, rfl⟩
  · rename_i k
    cases k with
    | flt k => exact storeFlt_stores (fun i => ⟨i, rfl⟩) _ _
    | _ => trivial

theorem onBool_stores {x : Ext} {ty : Ty} {b : Bool} : Stores (HasTy ty) (onBool x ty.etype b) := by
  cases ty <;> simp only [Ty.etype, onBool] <;> try trivial
  · exact ⟨_, rfl⟩
  · rename_i k; cases k <;> first | trivial | exact ⟨_, rfl⟩

theorem onNull_stores {x : Ext} {ty : Ty} : Stores (HasTy ty) (onNull x ty.etype) := by
  cases ty <;> simp only [Ty.etype, onNull] <;> trivial

theorem onString_stores {x : Ext} {ty : Ty} (ht : ∀ a b c, ty ≠ .textU a b c) {s : Bytes} : Stores (HasTy ty) (onString x ty.etype s) := by
  cases ty <;> simp only [Ty.etype, onString] <;> try trivial
  · split <;> first | trivial | exact ⟨_, rfl⟩
  · split
    · trivial
    · split <;> first | trivial | exact ⟨_, rfl⟩
  · rename_i k; cases k <;> simp only [] <;> try trivial
    split <;> first | trivial | exact ⟨_, rfl⟩
  · rename_i k; cases k <;> simp only []
    · split
      · exact ⟨_, rfl⟩
      · split <;> first | trivial | exact ⟨_, rfl⟩
    · split
      · trivial
      · split <;> first | trivial | exact ⟨_, rfl⟩
    · split <;> first | trivial | exact ⟨_, rfl⟩
    · split
      · trivial
      · split
        · trivial
        · exact storeFlt_stores (fun i => ⟨i, rfl⟩) _ _
  · exact absurd rfl (ht _ _ _)

theorem leaf_stores {x : Ext} {src : Bytes} {ty : Ty} (ht : ∀ a b c, ty ≠ .textU a b c) {v : JVal} : Stores (HasTy ty) (leaf x src ty.etype v) := by
  cases v with
  | null i e => exact onNull_stores
  | bool b i e => exact onBool_stores
  | num b i e => cases b <;> simp only [leaf] <;> split <;> first | trivial | exact onNumber_stores | exact onInteger_stores
  | str i e =>
    simp only [leaf]; split
    · trivial
    · exact onString_stores ht
  | arr i es k => trivial
  | obj i ms k => trivial

theorem leafV_keeps {x : Ext} {src : Bytes} {ty : Ty} (ht : ∀ a b c, ty ≠ .textU a b c) {v : JVal} {V : Val} (hV : HasTy ty V) : Keeps (HasTy ty) (leafV x src ty v V) :=
  actV_keeps (leaf_stores ht) (zero_typed ty) hV

theorem elemAct_stores {x : Ext} {src : Bytes} {k : SKind} {v : JVal} : Stores (HasK k) (elemAct x src k v) := by
  cases v with
  | null i e => trivial
  | bool b i e => cases k <;> simp only [elemAct] <;> first | trivial | exact ⟨_, rfl⟩
  | num isInt i e =>
    cases k with
    | bool => trivial
    | str => trivial
    | int k =>
      cases isInt <;> simp only [elemAct] <;> try trivial
      simp only [if_true]
      split
      · trivial
      · exact onInteger_stores (ty := .scalar (.int k))
    | flt k =>
      simp only [elemAct]
      split
      · trivial
      · exact storeFlt_stores (fun i => ⟨i, rfl⟩) _ _
  | str i e =>
    cases k <;> simp only [elemAct] <;> try trivial
    split <;> first | trivial | exact ⟨_, rfl⟩
  | arr i es k => trivial
  | obj i ms k => trivial

theorem elemsV_keeps {P : Val → Prop} {f : JVal → Val → R Val} : ∀ (vs : List JVal) (Ws : List Val), (∀ v ∈ vs, ∀ W, P W → Keeps P (f v W)) → (∀ W ∈ Ws, P W) →
    Keeps (fun Ws' => Ws'.length = Ws.length ∧ ∀ W ∈ Ws', P W) (elemsV f vs Ws)
  | [], Ws, _, h => by cases Ws <;> exact ⟨rfl, h⟩
  | v :: vs, [], _, h => ⟨rfl, h⟩
  | v :: vs, W :: Ws, hf, h => by
    have h1 := hf v (List.mem_cons_self ..) W (h W (List.mem_cons_self ..))
    have h2 : ∀ W' ∈ Ws, P W' := fun W' hW => h W' (List.mem_cons_of_mem _ hW)
    simp only [elemsV]
    cases hr : f v W with
    | ok W' =>
      rw [hr] at h1
      refine (elemsV_keeps vs Ws (fun v hv => hf v (List.mem_cons_of_mem _ hv)) h2).map ?_
      rintro Ws' ⟨hl, hW⟩
      refine ⟨by simp [hl], fun W'' hm => ?_⟩
      rcases List.mem_cons.1 hm with rfl | hm
      · exact h1
      · exact hW _ hm
    | err i e W' =>
      rw [hr] at h1
      refine ⟨by simp, fun W'' hm => ?_⟩
      rcases List.mem_cons.1 hm with rfl | hm
      · exact h1
      · exact h2 _ hm
    | crash => trivial
    | unsup => trivial

theorem sliceV_keeps {P : Val → Prop} {f : JVal → Val → R Val} {z V : Val} {c : Bool} {vs : List JVal} (hf : ∀ v ∈ vs, ∀ W, P W → Keeps P (f v W)) (h : SliceP P V) (hz : P z) :
    Keeps (SliceP P) (sliceV f z c vs V) := by
  unfold sliceV
  split
  · exact .inr ⟨[], [], rfl, fun W hW => by cases hW⟩
  · have hp := prepSlice_P (c := c) (n := vs.length) h hz
    generalize prepSlice z c vs.length V = q at hp
    obtain ⟨base, sp⟩ := q
    simp only [] at hp ⊢
    refine (elemsV_keeps vs base hf fun W hW => hp W (List.mem_append_left _ hW)).map ?_
    rintro es ⟨-, he⟩
    refine .inr ⟨es, sp, rfl, fun W hW => ?_⟩
    rcases List.mem_append.1 hW with hW | hW
    · exact he W hW
    · exact hp W (List.mem_append_right _ hW)

theorem sliceOfV_keeps {P : Val → Prop} {f : JVal → Val → R Val} {z V : Val} {vs : List JVal} (hf : ∀ v ∈ vs, ∀ W, P W → Keeps P (f v W)) (h : SliceP P V) (hz : P z) :
    Keeps (SliceP P) (sliceOfV f z vs V) := by
  unfold sliceOfV
  split
  · exact .inr ⟨[], [], rfl, fun W hW => by cases hW⟩
  · have hp := sliceParts_P h
    generalize sliceParts V = q at hp
    obtain ⟨es, sp⟩ := q
    simp only [] at hp ⊢
    split
    · have := elemsV_keeps vs (List.replicate vs.length z) hf fun W hW => by rw [List.eq_of_mem_replicate hW]; exact hz
      cases hr : elemsV f vs (List.replicate vs.length z) with
      | ok es' => rw [hr] at this; exact .inr ⟨es', [], rfl, by simpa using this.2⟩
      | err i e es' => exact h
      | crash => trivial
      | unsup => trivial
    · have := elemsV_keeps vs ((es ++ sp).take vs.length) hf fun W hW => hp W (List.mem_of_mem_take hW)
      cases hr : elemsV f vs ((es ++ sp).take vs.length) with
      | ok es' =>
        rw [hr] at this
        refine .inr ⟨es', _, rfl, fun W hW => ?_⟩
        rcases List.mem_append.1 hW with hW | hW
        · exact this.2 W hW
        · exact hp W (List.mem_of_mem_drop hW)
      | err i e es' =>
        rw [hr] at this
        refine .inr ⟨_, _, rfl, fun W hW => ?_⟩
        rw [List.take_append_drop] at hW
        rcases List.mem_append.1 hW with hW | hW
        · exact this.2 W hW
        · exact hp W (List.mem_of_mem_drop hW)
      | crash => trivial
      | unsup => trivial

theorem mapV_keeps {P : Val → Prop} {x : Ext} {src : Bytes} {f : JVal → Val → R Val} {k : KeyTy} {z : Val} {fresh : Bool} (hz : P z) :
    ∀ (ms : List ((Nat × Nat) × JVal)) (m : List (Key × Val)), (∀ a ∈ ms, ∀ W, P W → Keeps P (f a.2 W)) → (∀ e ∈ m, P e.2) →
      Keeps (fun m' => ∀ e ∈ m', P e.2) (mapV x src f k z fresh ms m)
  | [], m, _, h => h
  | ((i, e), v) :: ms, m, hf, h => by
    simp only [mapV]
    split
    · trivial
    · exact h
    · rename_i k' _
      have ho : P (if fresh then z else (lookupV k' m).getD z) := by
        cases fresh
        · exact lookupV_P hz h
        · exact hz
      have h1 := hf _ (List.mem_cons_self ..) _ ho
      simp only [] at h1
      split <;> rename_i hr' <;> rw [hr'] at h1
      · exact mapV_keeps hz ms _ (fun a ha => hf a (List.mem_cons_of_mem _ ha)) (assignV_P h1 h)
      · exact assignV_P h1 h
      · trivial
      · trivial

theorem mapSSV_keeps {x : Ext} {src : Bytes} : ∀ (ms : List ((Nat × Nat) × JVal)) (m m' : List (Key × Val)), (∀ e ∈ m, HasK .str e.2) → mapSSV x src ms m = some (.ok m') → ∀ e ∈ m', HasK .str e.2
  | [], m, m', h, hr => by simp only [mapSSV, Option.some.injEq, Except.ok.injEq] at hr; subst hr; exact h
  | ((i, e), v) :: ms, m, m', h, hr => by
    simp only [mapSSV] at hr
    split at hr
    · split at hr
      · exact mapSSV_keeps ms _ m' (assignV_P (P := HasK .str) ⟨_, rfl⟩ h) hr
      · cases hr
    · split at hr
      · exact mapSSV_keeps ms _ m' (assignV_P (P := HasK .str) ⟨_, rfl⟩ h) hr
      · cases hr
    · cases hr

theorem structV_keeps {x : Ext} {src : Bytes} {o : Options} {oo : Option Options} {fs : List (Bytes × Nat × Ty)} :
    ∀ (ms : List ((Nat × Nat) × JVal)) (Ws : List Val), 
      (∀ m ∈ ms, ∀ (j : Nat) f, fs[j]? = some f → ∀ W, HasTy f.2.2 W → Keeps (HasTy f.2.2) (decV x src oo f.2.2 m.2 W)) → HasTyF fs Ws →
      Keeps (HasTyF fs) (structV x src o (decVF x src oo fs) ms Ws)
  | [], Ws, _, h => h
  | ((i, e), v) :: ms, Ws, hf, h => by
    simp only [structV, Val.decVF_names]
    split
    · trivial
    · rename_i n _
      cases hj : findField x o ((fs.map (·.1)).zipIdx) n with
      | none =>
        simp only []
        split
        · exact h
        · split
          · trivial
          · exact structV_keeps ms Ws (fun m hm => hf m (List.mem_cons_of_mem _ hm)) h
      | some j =>
        have hlt := Sim.findField_lt hj
        simp only [List.length_map] at hlt
        have hfj : fs[j]? = some fs[j] := List.getElem?_eq_getElem hlt
        obtain ⟨W, hW, hT⟩ := hasTyF_get h hfj
        have h1 := hf _ (List.mem_cons_self ..) j _ hfj W hT
        simp only [Val.decVF_get, hfj, Option.map_some, hW]
        simp only [] at h1
        split <;> rename_i hr <;> rw [hr] at h1
        · exact structV_keeps ms _ (fun m hm => hf m (List.mem_cons_of_mem _ hm)) (hasTyF_set h hfj h1)
        · exact hasTyF_set h hfj h1
        · trivial
        · trivial

mutual
/-- Whatever decoding leaves is well-typed. -/
theorem decV_keeps {x : Ext} {src : Bytes} {o : Option Options} : ∀ (ty : Ty) {v : JVal} {V : Val}, HasTy ty V → Keeps (HasTy ty) (decV x src o ty v V)
  | .jsonU rt n impl, v, V, hV => by
    obtain ⟨b, rfl, hb⟩ := hV
    simp only [decV, jsonV]
    split
    · split <;> exact ⟨_, rfl, fit_length _ _⟩
    · trivial
  | .textU rt n impl, v, V, hV => by
    obtain ⟨b, rfl, hb⟩ := hV
    cases v with
    | str i e =>
      simp only [decV, leaf]
      split
      · trivial
      · simp only [onString]
        split
        · trivial
        · cases impl
          · trivial
          · simp only [actV, textCall]
            split
            · rename_i hr; simp only [Prod.mk.injEq] at hr; rw [← hr.1]; exact ⟨_, rfl, fit_length _ _⟩
            · rename_i hr; simp only [Prod.mk.injEq] at hr; rw [← hr.1]; exact ⟨_, rfl, fit_length _ _⟩
    | num isInt i e =>
      cases isInt <;> simp only [decV, leaf] <;> split <;> first | trivial | exact ⟨_, rfl, hb⟩
    | null i e => exact ⟨_, rfl, hb⟩
    | bool b' i e => exact ⟨_, rfl, hb⟩
    | arr i es k => exact ⟨_, rfl, hb⟩
    | obj i ms k => exact ⟨_, rfl, hb⟩
  | .any, v, V, hV => by
    have ha : Keeps (HasTy .any) (anyV x src v V) := by
      unfold anyV
      split
      · trivial
      · exact hV
      · exact ⟨_, rfl⟩
    have hl := leafV_keeps (x := x) (src := src) (v := v) (ty := .any) (by simp) hV
    cases v <;> simp only [decV] <;> assumption
  | .array0, v, V, hV => by
    have hl := leafV_keeps (x := x) (src := src) (v := v) (ty := .array0) (by simp) hV
    cases v <;> simp only [decV] <;> assumption
  | .array n e, v, V, hV => by
    have hl := leafV_keeps (x := x) (src := src) (v := v) (ty := .array n e) (by simp) hV
    obtain ⟨es, rfl, hn, he⟩ := hV
    cases v with
    | arr i vs k =>
      simp only [decV]
      refine (elemsV_keeps vs es (fun v hv W hW => decV_keeps e hW) he).map ?_
      rintro Ws ⟨h1, h2⟩
      exact ⟨Ws, rfl, h1.trans hn, h2⟩
    | _ => simp only [decV]; exact hl
  | .slice e, v, V, hV => by
    have hl := leafV_keeps (x := x) (src := src) (v := v) (ty := .slice e) (by simp) hV
    cases v with
    | arr i vs k =>
      simp only [decV]
      exact sliceV_keeps (P := HasTy e) (fun v hv W hW => decV_keeps e hW) hV (zero_typed e)
    | _ => simp only [decV]; exact hl
  | .sliceOf k, v, V, hV => by
    have hl := leafV_keeps (x := x) (src := src) (v := v) (ty := .sliceOf k) (by simp) hV
    cases v with
    | arr i vs kk =>
      simp only [decV]
      exact sliceOfV_keeps (P := HasK k) (fun v hv W hW => actV_keeps elemAct_stores (zeroS_hasK k) hW) hV (zeroS_hasK k)
    | _ => simp only [decV]; exact hl
  | .sliceES, v, V, hV => by
    have hl := leafV_keeps (x := x) (src := src) (v := v) (ty := .sliceES) (by simp) hV
    cases v with
    | arr i vs kk => exact .inr ⟨_, _, rfl, fun W hW => by simp only [List.append_nil] at hW; exact List.eq_of_mem_replicate hW⟩
    | _ => simp only [decV]; exact hl
  | .mapSS, v, V, hV => by
    have hl := leafV_keeps (x := x) (src := src) (v := v) (ty := .mapSS) (by simp) hV
    cases v with
    | obj i ms k =>
      simp only [decV]
      split
      · trivial
      · exact hV
      · rename_i es hr
        exact .inr ⟨es, rfl, mapSSV_keeps ms [] es (fun e he => by cases he) hr⟩
    | _ => simp only [decV]; exact hl
  | .map k e, v, V, hV => by
    have hl := leafV_keeps (x := x) (src := src) (v := v) (ty := .map k e) (by simp) hV
    cases v with
    | obj i ms kk =>
      simp only [decV]
      split
      · trivial
      · have hm : ∀ a ∈ mapParts V, HasTy e a.2 := by
          rcases hV with rfl | ⟨es, rfl, h⟩
          · intro a ha; cases ha
          · exact h
        exact (mapV_keeps (P := HasTy e) (zero_typed e) ms _ (fun a ha W hW => decV_keeps e hW) hm).map fun m h => .inr ⟨m, rfl, h⟩
    | _ => simp only [decV]; exact hl
  | .struct n fs, v, V, hV => by
    have hl := leafV_keeps (x := x) (src := src) (v := v) (ty := .struct n fs) (by simp) hV
    obtain ⟨Ws, rfl, hW⟩ := hV
    cases v with
    | obj i ms k =>
      simp only [decV]
      split
      · exact ⟨Ws, rfl, hW⟩
      · split
        · trivial
        · exact (structV_keeps ms Ws (fun m hm j f hf W hT => decVF_keeps fs hf hT) hW).map fun Ws' h => ⟨Ws', rfl, h⟩
    | _ => simp only [decV]; exact hl
  | .emptyStruct, v, V, hV => by
    have hl := leafV_keeps (x := x) (src := src) (v := v) (ty := .emptyStruct) (by simp) hV
    cases v <;> simp only [decV] <;> first | assumption | trivial
  | .ptr e, v, V, hV => by
    have hp := (decV_keeps (x := x) (src := src) (o := o) (v := v) e (Safe.pointee_typed (x := x) hV)).map (Q := HasTy (.ptr e)) fun W h => .inr ⟨W, rfl, h⟩
    cases v <;> first | exact .inl rfl | exact hp
  | .number, v, V, hV => leafV_keeps (ty := .number) (by simp) hV
  | .scalar k, v, V, hV => leafV_keeps (ty := .scalar k) (by simp) hV
  | .quoted k, v, V, hV => leafV_keeps (ty := .quoted k) (by simp) hV
theorem decVF_keeps {x : Ext} {src : Bytes} {o : Option Options} : ∀ (fs : List (Bytes × Nat × Ty)) {j : Nat} {f : Bytes × Nat × Ty}, fs[j]? = some f → ∀ {v : JVal} {V : Val}, HasTy f.2.2 V →
    Keeps (HasTy f.2.2) (decV x src o f.2.2 v V)
  | [], j, f, hf, v, V, hV => by simp at hf
  | (_, _, t) :: fs, 0, f, hf, v, V, hV => by
    simp only [List.getElem?_cons_zero, Option.some.injEq] at hf
    subst hf
    exact decV_keeps t hV
  | _ :: fs, j + 1, f, hf, v, V, hV => by
    simp only [List.getElem?_cons_succ] at hf
    exact decVF_keeps fs hf hV
end

end Verif.Proof.Typed

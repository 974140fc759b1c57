import Verif.Proof.Widen
import Verif.Proof.RecOutcome
import Verif.Spec.WidenRec
/-!
# Wider integers in recursive struct types
-/
namespace Verif.Proof.Widen
open Verif.Model Verif.Big Verif.Spec Verif.Proof Verif.Proof.Outcome Verif.Proof.Comp Verif.Proof.Safe Verif.Proof.Evolve

theorem decVF_names {x : Ext} {src : Bytes} {o : Option Options} : ∀ (fs : List (Bytes × Nat × Ty)), (decVF x src o fs).map (·.1) = fs.map (·.1)
  | [] => rfl
  | (n, a, t) :: fs => by simp only [decVF, List.map_cons, decVF_names fs]

theorem decV_get {x : Ext} {src : Bytes} {o : Option Options} : ∀ {fs : List (Bytes × Nat × Ty)} {j : Nat} {f : Bytes × Nat × Ty}, fs[j]? = some f → (decVF x src o fs)[j]? = some (f.1, decV x src o f.2.2)
  | (n, a, e) :: fs, 0, f, h => by cases h; rfl
  | (n, a, e) :: fs, j + 1, f, h => by simp only [decVF, List.getElem?_cons_succ]; exact decV_get (by simpa using h)

theorem tameF_get {x : Ext} {src : Bytes} {o : Option Options} : ∀ {fs : List (Bytes × Nat × Ty)} {j : Nat} {f : Bytes × Nat × Ty}, fs[j]? = some f → (TameF x src o fs)[j]? = some (Tame x src o f.2.2)
  | (n, a, e) :: fs, 0, f, h => by cases h; rfl
  | (n, a, e) :: fs, j + 1, f, h => by simp only [TameF, List.getElem?_cons_succ]; exact tameF_get (by simpa using h)

/-- The members of an object. -/
theorem struct_vw {x : Ext} {src : Bytes} {o : Options} {E : Err → Prop} {fs : WFields} (ih : ∀ f ∈ fs, ∀ v V, Wf src v → RW E (decV x src (some o) f.2.2.2.old v V) (decV x src (some o) f.2.2.2.new v V)) :
    ∀ {ms : List ((Nat × Nat) × JVal)} {Vs : List Val}, WfM src ms →
    RW E (structV x src o (decVF x src (some o) (oldW fs)) ms Vs) (structV x src o (decVF x src (some o) (newW fs)) ms Vs)
  | [], Vs, _ => .inl rfl
  | ((i, e), v) :: ms, Vs, hw => by
    have ihm := fun {Vs : List Val} => struct_vw ih (ms := ms) (Vs := Vs) hw.2.2
    simp only [structV, decVF_names, oldW_names, newW_names]
    cases (Model.slice src (i + 1) (e - 1)).bind (keyName o) with
    | none => exact .inl rfl
    | some name =>
      simp only
      cases hj : findField x o (fs.map (·.1)).zipIdx name with
      | none =>
        simp only
        split
        · exact .inl rfl
        · split
          · exact .inl rfl
          · exact ihm
      | some j =>
        have hlt : j < fs.length := by have := sel_lt (selects_iff.1 hj); simpa using this
        have hf : fs[j]? = some fs[j] := List.getElem?_eq_getElem hlt
        simp only [decV_get (oldW_get hf), decV_get (newW_get hf)]
        cases Vs[j]? with
        | none => exact .inl rfl
        | some V =>
          simp only
          rcases ih _ (List.getElem_mem hlt) v V hw.2.1 with h1 | ⟨i, e, a, h1, h2⟩
          · rw [h1]
            cases decV x src (some o) _ v V with
            | ok a => exact ihm
            | _ => exact .inl rfl
          · rw [h1]
            exact .inr ⟨i, e, _, rfl, h2⟩

mutual
/-- The readings of both types. -/
theorem dec_vw {x : Ext} {src : Bytes} {o : Options} {mixed : Bool} : ∀ (e : WTy) (v : JVal) (V : Val), e.Ok (Fit x.is64 mixed) Eq → Wf src v → RW (Avoids mixed) (decV x src (some o) e.old v V) (decV x src (some o) e.new v V)
  | .same t, v, V, _, _ => .inl rfl
  | .int k k', v, V, ho, hw => scalar_rw ho hw V
  | .quoted k k', v, V, ho, hw => by cases ho; exact .inl rfl
  | .ints k k', v, V, ho, hw => by
    cases v with
    | arr i vs z => exact sliceOf_rw fun v hv W => elem_rw ho (wfL_mem hw.2.2.2.2 v hv) W
    | num b i e => exact .inl (by cases b <;> simp only [WTy.old, WTy.new, decV, leafV, leaf, Doc.slice_text hw.1 hw.2.1] <;> rfl)
    | str i e => exact .inl (by simp only [WTy.old, WTy.new, decV, leafV, leaf, Doc.slice_inner hw]; rfl)
    | _ => exact .inl rfl
  | .array n e, v, V, ho, hw => by
    have hl : leafV x src (WTy.array n e).new v V = leafV x src (WTy.array n e).old v V := leaf_w (e := .array n e) rfl v V
    cases v with
    | arr i vs z =>
      cases V with
      | arr Vs => exact (elems_rw fun v hv W => dec_vw e v W ho (wfL_mem hw.2.2.2.2 v hv)).map _
      | _ => exact .inl hl
    | _ => exact .inl hl
  | .slice e, v, V, ho, hw => by
    have hl : leafV x src (WTy.slice e).new v V = leafV x src (WTy.slice e).old v V := leaf_w (e := .slice e) rfl v V
    cases v with
    | arr i vs z =>
      show RW _ (sliceV _ _ _ vs V) (sliceV _ _ _ vs V)
      rw [zero_eq, comp_w]
      exact slice_rw fun v hv W => dec_vw e v W ho (wfL_mem hw.2.2.2.2 v hv)
    | _ => exact .inl hl
  | .map k e, v, V, ho, hw => by
    have hl : leafV x src (WTy.map k e).new v V = leafV x src (WTy.map k e).old v V := leaf_w (e := .map k e) rfl v V
    cases v with
    | obj i ms z =>
      simp only [WTy.old, WTy.new, decV, zero_eq, fresh_w]
      split
      · exact .inl rfl
      · exact (map_rw fun a ha W => dec_vw e a.2 W ho (wfM_mem hw.2.2.2.2 a ha).2).map _
    | _ => exact .inl hl
  | .keys k k' e, v, V, ho, hw => by
    obtain ⟨rfl, ho⟩ := ho
    have hl : leafV x src (WTy.keys k k e).new v V = leafV x src (WTy.keys k k e).old v V := leaf_w (e := .keys k k e) rfl v V
    cases v with
    | obj i ms z =>
      simp only [WTy.old, WTy.new, decV, zero_eq, fresh_w]
      split
      · exact .inl rfl
      · exact (map_rw fun a ha W => dec_vw e a.2 W ho (wfM_mem hw.2.2.2.2 a ha).2).map _
    | _ => exact .inl hl
  | .ptr e, v, V, ho, hw => by
    have key := (dec_vw (o := o) e v (pointee (zeroV x e.old) V) ho hw).map Val.ptr
    cases v with
    | null => exact .inl rfl
    | _ => simp only [WTy.old, WTy.new, decV, zero_eq]; exact key
  | .struct n n' fs, v, V, ho, hw => by
    have hl : leafV x src (WTy.struct n n' fs).new v V = leafV x src (WTy.struct n n' fs).old v V := leaf_w (e := .struct n n' fs) rfl v V
    cases v with
    | obj i ms z =>
      cases V with
      | struct Vs =>
        simp only [WTy.old, WTy.new, decV]
        split
        · exact .inl rfl
        · exact (struct_vw (dec_vwW fs ho.2) hw.2.2.2.2).map _
      | _ => exact .inl hl
    | _ => exact .inl hl
theorem dec_vwW {x : Ext} {src : Bytes} {o : Options} {mixed : Bool} : ∀ (fs : WFields), OkW (Fit x.is64 mixed) Eq fs → ∀ f ∈ fs, ∀ v V, Wf src v →
    RW (Avoids mixed) (decV x src (some o) f.2.2.2.old v V) (decV x src (some o) f.2.2.2.new v V)
  | (n, a, b, e) :: fs, ho, f, hf, v, V, hw => by
    rcases List.mem_cons.1 hf with rfl | hf
    · exact dec_vw e v V ho.1 hw
    · exact dec_vwW fs ho.2 f hf v V hw
end

/-- The members of an object. -/
theorem struct_vl {x : Ext} {src : Bytes} {o : Options} {E : Err → Prop} {fs : WFields}
    (ih : ∀ f ∈ fs, ∀ v V, Wf src v → f.2.2.2.Literals x src o v → RW E (decV x src (some o) f.2.2.2.old v V) (decV x src (some o) f.2.2.2.new v V)) :
    ∀ {ms : List ((Nat × Nat) × JVal)} {Vs : List Val}, WfM src ms → (∀ m ∈ ms, ∀ j L, KeySelects x src o (fs.map (·.1)) m.1 j → (literalsW x src o fs)[j]? = some L → L m.2) →
    RW E (structV x src o (decVF x src (some o) (oldW fs)) ms Vs) (structV x src o (decVF x src (some o) (newW fs)) ms Vs)
  | [], Vs, _, _ => .inl rfl
  | ((i, e), v) :: ms, Vs, hw, hl => by
    have ihm := fun {Vs : List Val} => struct_vl ih (ms := ms) (Vs := Vs) hw.2.2 fun m hm => hl m (List.mem_cons_of_mem _ hm)
    obtain ⟨name, h1, h2, -⟩ := key_fun x o (fs.map (·.1)) (k := (i, e)) hw.1
    simp only [structV, decVF_names, oldW_names, newW_names, h1]
    cases hj : findField x o (fs.map (·.1)).zipIdx name with
    | none =>
      simp only
      split
      · exact .inl rfl
      · split
        · exact .inl rfl
        · exact ihm
    | some j =>
      have hlt : j < fs.length := by have := sel_lt (selects_iff.1 hj); simpa using this
      have hf : fs[j]? = some fs[j] := List.getElem?_eq_getElem hlt
      have hL := hl _ List.mem_cons_self j _ ((h2 j).2 hj) (literalsW_get hf)
      simp only [decV_get (oldW_get hf), decV_get (newW_get hf)]
      cases Vs[j]? with
      | none => exact .inl rfl
      | some V =>
        simp only
        rcases ih _ (List.getElem_mem hlt) v V hw.2.1 hL with h1 | ⟨i, e, a, h1, h2⟩
        · rw [h1]
          cases decV x src (some o) _ v V with
          | ok a => exact ihm
          | _ => exact .inl rfl
        · rw [h1]
          exact .inr ⟨i, e, _, rfl, h2⟩

mutual
/-- The readings of both types, of a document whose literals are taken for what they are. -/
theorem dec_vl {x : Ext} {src : Bytes} {o : Options} : ∀ (e : WTy) (v : JVal) (V : Val), e.Ok (Wider x.is64) (Wider x.is64) → Wf src v → e.Literals x src o v →
    RW (Avoids true) (decV x src (some o) e.old v V) (decV x src (some o) e.new v V)
  | .same t, v, V, _, _, _ => .inl rfl
  | .int k k', v, V, ho, hw, hL => scalar_rl (o := o) ho hw hL V
  | .quoted k k', v, V, ho, hw, hL => quotedV_rl ho hw hL V
  | .ints k k', v, V, ho, hw, hL => by
    cases v with
    | arr i vs z => exact sliceOf_rw fun v hv W => elem_rl ho (wfL_mem hw.2.2.2.2 v hv) (fun i e h => hL i e (h ▸ hv)) W
    | num b i e => exact .inl (by cases b <;> simp only [WTy.old, WTy.new, decV, leafV, leaf, Doc.slice_text hw.1 hw.2.1] <;> rfl)
    | str i e => exact .inl (by simp only [WTy.old, WTy.new, decV, leafV, leaf, Doc.slice_inner hw]; rfl)
    | _ => exact .inl rfl
  | .array n e, v, V, ho, hw, hL => by
    have hl : leafV x src (WTy.array n e).new v V = leafV x src (WTy.array n e).old v V := leaf_w (e := .array n e) rfl v V
    cases v with
    | arr i vs z =>
      cases V with
      | arr Vs => exact (elems_rw fun v hv W => dec_vl e v W ho (wfL_mem hw.2.2.2.2 v hv) (hL v hv)).map _
      | _ => exact .inl hl
    | _ => exact .inl hl
  | .slice e, v, V, ho, hw, hL => by
    have hl : leafV x src (WTy.slice e).new v V = leafV x src (WTy.slice e).old v V := leaf_w (e := .slice e) rfl v V
    cases v with
    | arr i vs z =>
      show RW _ (sliceV _ _ _ vs V) (sliceV _ _ _ vs V)
      rw [zero_eq, comp_w]
      exact slice_rw fun v hv W => dec_vl e v W ho (wfL_mem hw.2.2.2.2 v hv) (hL v hv)
    | _ => exact .inl hl
  | .map k e, v, V, ho, hw, hL => by
    have hl : leafV x src (WTy.map k e).new v V = leafV x src (WTy.map k e).old v V := leaf_w (e := .map k e) rfl v V
    cases v with
    | obj i ms z =>
      simp only [WTy.old, WTy.new, decV, zero_eq, fresh_w]
      split
      · exact .inl rfl
      · exact (map_rw fun a ha W => dec_vl e a.2 W ho (wfM_mem hw.2.2.2.2 a ha).2 (hL a ha)).map _
    | _ => exact .inl hl
  | .keys k k' e, v, V, ho, hw, hL => by
    have hl : leafV x src (WTy.keys k k' e).new v V = leafV x src (WTy.keys k k' e).old v V := leaf_w (e := .keys k k' e) rfl v V
    cases v with
    | obj i ms z =>
      simp only [WTy.old, WTy.new, decV, zero_eq, fresh_w]
      rw [if_neg (fun hc => by cases hc.1), if_neg (fun hc => by cases hc.1)]
      exact (keys_rl ho.1 fun a ha => ⟨(wfM_mem hw.2.2.2.2 a ha).1, (hL a ha).1, fun W => dec_vl e a.2 W ho.2 (wfM_mem hw.2.2.2.2 a ha).2 (hL a ha).2⟩).map _
    | _ => exact .inl hl
  | .ptr e, v, V, ho, hw, hL => by
    have key := (dec_vl (o := o) e v (pointee (zeroV x e.old) V) ho hw hL).map Val.ptr
    cases v with
    | null => exact .inl rfl
    | _ => simp only [WTy.old, WTy.new, decV, zero_eq]; exact key
  | .struct n n' fs, v, V, ho, hw, hL => by
    have hl : leafV x src (WTy.struct n n' fs).new v V = leafV x src (WTy.struct n n' fs).old v V := leaf_w (e := .struct n n' fs) rfl v V
    cases v with
    | obj i ms z =>
      cases V with
      | struct Vs =>
        simp only [WTy.old, WTy.new, decV]
        split
        · exact .inl rfl
        · exact (struct_vl (dec_vlW fs ho.2) hw.2.2.2.2 hL).map _
      | _ => exact .inl hl
    | _ => exact .inl hl
theorem dec_vlW {x : Ext} {src : Bytes} {o : Options} : ∀ (fs : WFields), OkW (Wider x.is64) (Wider x.is64) fs → ∀ f ∈ fs, ∀ v V, Wf src v → f.2.2.2.Literals x src o v →
    RW (Avoids true) (decV x src (some o) f.2.2.2.old v V) (decV x src (some o) f.2.2.2.new v V)
  | (n, a, b, e) :: fs, ho, f, hf, v, V, hw, hL => by
    rcases List.mem_cons.1 hf with rfl | hf
    · exact dec_vl e v V ho.1 hw hL
    · exact dec_vlW fs ho.2 f hf v V hw hL
end

mutual
/-- The other type reaches no other spots. -/
theorem tame_w {x : Ext} {src : Bytes} {o : Option Options} : ∀ (e : WTy) (v : JVal), Tame x src o e.old v → Tame x src o e.new v
  | .same t, v, h => h
  | .int _ _, v, h => h
  | .ints _ _, v, h => h
  | .quoted _ _, v, h => h
  | .array n e, v, h => by
    cases v with
    | arr i vs z => exact fun w hw => tame_w e w (h w hw)
    | _ => trivial
  | .slice e, v, h => by
    cases v with
    | arr i vs z => exact fun w hw => tame_w e w (h w hw)
    | _ => trivial
  | .map k e, v, h => by
    cases v with
    | obj i ms z => exact ⟨h.1, fun m hm => tame_w e m.2 (h.2 m hm)⟩
    | _ => trivial
  | .keys k k' e, v, h => by
    cases v with
    | obj i ms z => exact ⟨fun hk => by (cases hk), fun m hm => tame_w e m.2 (h.2 m hm)⟩
    | _ => trivial
  | .ptr e, v, h => h
  | .struct n n' fs, v, h => by
    cases v with
    | obj i ms z =>
      intro m hm o' ho' raw name hraw hkn
      have h0 := h m hm o' ho' raw name hraw hkn
      show match findField x o' (((newW fs).map (·.1)).zipIdx) name with
        | some j => ∀ T, (TameF x src o (newW fs))[j]? = some T → T m.2
        | none => o'.disallowUnknownFields = true ∨ hasObj m.2 = false
      rw [newW_names]
      rw [oldW_names] at h0
      cases hj : findField x o' (fs.map (·.1)).zipIdx name with
      | none => rw [hj] at h0; exact h0
      | some j =>
        rw [hj] at h0
        have hlt : j < fs.length := by have := sel_lt (selects_iff.1 hj); simpa using this
        have hf : fs[j]? = some fs[j] := List.getElem?_eq_getElem hlt
        intro T hT
        rw [tameF_get (newW_get hf)] at hT
        cases hT
        exact tame_wW fs _ (List.getElem_mem hlt) m.2 (h0 _ (tameF_get (oldW_get hf)))
    | _ => trivial
theorem tame_wW {x : Ext} {src : Bytes} {o : Option Options} : ∀ (fs : WFields), ∀ f ∈ fs, ∀ v, Tame x src o f.2.2.2.old v → Tame x src o f.2.2.2.new v
  | (n, a, b, e) :: fs, f, hf, v, h => by
    rcases List.mem_cons.1 hf with rfl | hf
    · exact tame_w e v h
    · exact tame_wW fs f hf v h
end

/-! ## Recursive struct types -/

theorem map_oldW (F : WRFields) (e : WTy) : ∀ fs : WRFields, oldW (tyW e fs) = tyF e.old (oldR fs)
  | [] => rfl
  | (n, a, b, f) :: fs => by
    show _ :: _ = _ :: _
    congr 1
    · cases f <;> rfl
    · exact map_oldW F e fs

theorem map_newW (F : WRFields) (e : WTy) : ∀ fs : WRFields, newW (tyW e fs) = tyF e.new (newR fs)
  | [] => rfl
  | (n, a, b, f) :: fs => by
    show _ :: _ = _ :: _
    congr 1
    · cases f <;> rfl
    · exact map_newW F e fs

theorem unrollW_old {s s' : Nat} {fs : WRFields} : ∀ n, (unrollW s s' fs n).old = unroll s (oldR fs) n
  | 0 => rfl
  | n + 1 => by
    show Ty.struct s (oldW (tyW (unrollW s s' fs n) fs)) = _
    rw [map_oldW fs, unrollW_old n]; rfl

theorem unrollW_new {s s' : Nat} {fs : WRFields} : ∀ n, (unrollW s s' fs n).new = unroll s' (newR fs) n
  | 0 => rfl
  | n + 1 => by
    show Ty.struct s' (newW (tyW (unrollW s s' fs n) fs)) = _
    rw [map_newW fs, unrollW_new n]; rfl

theorem ok_tyW {P Q : IKind → IKind → Prop} {e : WTy} (he : e.Ok P Q) : ∀ {fs : WRFields}, (∀ f ∈ fs, f.2.2.2.Ok P Q) → OkW P Q (tyW e fs)
  | [], _ => trivial
  | (n, a, b, f) :: fs, h => by
    refine ⟨?_, ok_tyW he fun f hf => h f (List.mem_cons_of_mem _ hf)⟩
    have := h _ List.mem_cons_self
    cases f with
    | plain t => exact this
    | _ => exact he

theorem unrollW_ok {P Q : IKind → IKind → Prop} {s s' : Nat} {fs : WRFields} (hs : s' = 0 → s = 0) (h : ∀ f ∈ fs, f.2.2.2.Ok P Q) : ∀ n, (unrollW s s' fs n).Ok P Q
  | 0 => trivial
  | n + 1 => ⟨hs, ok_tyW (unrollW_ok hs h n) h⟩

theorem oldR_names : ∀ fs : WRFields, (oldR fs).map (·.1) = fs.map (·.1)
  | [] => rfl
  | (n, _, _, e) :: fs => by have := oldR_names fs; simp only [oldR, List.map_cons] at this ⊢; rw [this]

theorem newR_names : ∀ fs : WRFields, (newR fs).map (·.1) = fs.map (·.1)
  | [] => rfl
  | (n, _, _, e) :: fs => by have := newR_names fs; simp only [newR, List.map_cons] at this ⊢; rw [this]

theorem tameR_w {x : Ext} {src : Bytes} {o : Option Options} {fs : WRFields} : ∀ (n : Nat) (here top : Bool) (v : JVal), TameR x src o (oldR fs) n here top v → TameR x src o (newR fs) n here top v
  | 0, _, _, _, h => h
  | n + 1, here, top, v, h => by
    intro i ms k hv a m hm o' ho' raw name h1 h2
    have h0 := h i ms k hv a m hm o' ho' raw name h1 h2
    rw [newR_names]
    rw [oldR_names] at h0
    cases hj : findField x o' (fs.map (·.1)).zipIdx name with
    | none => rw [hj] at h0; exact h0
    | some j =>
      rw [hj] at h0
      have hlt : j < fs.length := by have := sel_lt (selects_iff.1 hj); simpa using this
      have e1 : (oldR fs)[j]? = some (fs[j].1, fs[j].2.1, fs[j].2.2.2.old) := by simp [oldR, hlt]
      have e2 : (newR fs)[j]? = some (fs[j].1, fs[j].2.2.1, fs[j].2.2.2.new) := by simp [newR, hlt]
      intro f hf
      rw [e2] at hf; cases hf
      have h3 := h0 _ e1
      revert h3
      generalize fs[j].2.2.2 = r
      intro h3
      have ih := tameR_w (x := x) (src := src) (o := o) (fs := fs) n
      cases r with
      | plain t => exact ⟨tame_w t _ h3.1, h3.2⟩
      | ptr => exact ⟨fun i ms k he => ih _ _ _ (h3.1 i ms k he), h3.2⟩
      | slice => exact ⟨fun i vs k he j w hw => ⟨(h3.1 i vs k he j w hw).1, ih _ _ _ (h3.1 i vs k he j w hw).2⟩, h3.2⟩
      | map k =>
        refine ⟨fun i ms e he => ?_, h3.2⟩
        obtain ⟨a1, a2, a3, a4, a5⟩ := h3.1 i ms e he
        exact ⟨a1, a2, a3, a4, fun m hm => ⟨(a5 m hm).1, ih _ _ _ (a5 m hm).2⟩⟩

end Verif.Proof.Widen

import Verif.Proof.Evolve
import Verif.Proof.WidenRec
import Verif.Spec.EvolveRec
/-!
# New fields in recursive struct types
-/
namespace Verif.Proof.Evolve
open Verif.Model Verif.Big Verif.Spec Verif.Proof Verif.Proof.Outcome Verif.Proof.Comp Verif.Proof.Safe

theorem pointee_sees {P : Val → Val → Prop} {z z' V W : Val} (hz : P z z') (h : (V = .nil ∧ W = .nil) ∨ ∃ V' W', V = .ptr V' ∧ W = .ptr W' ∧ P V' W') : P (pointee z V) (pointee z' W) := by
  rcases h with ⟨rfl, rfl⟩ | ⟨V', W', rfl, rfl, h⟩
  · exact hz
  · exact h

theorem newV_get {x : Ext} {src : Bytes} {o : Option Options} : ∀ {fs : EFields} {j : Nat} {f : Bytes × Nat × Nat × Bool × ETy}, fs[j]? = some f → (decVF x src o (newF fs))[j]? = some (f.1, decV x src o f.2.2.2.2.new)
  | (n, a, b, c, e) :: fs, 0, f, h => by cases h; rfl
  | (n, a, b, c, e) :: fs, j + 1, f, h => by simp only [newF, decVF, List.getElem?_cons_succ]; exact newV_get (by simpa using h)

theorem oldV_get {x : Ext} {src : Bytes} {o : Option Options} : ∀ {fs : EFields} {j : Nat} {f : Bytes × Nat × Nat × Bool × ETy}, fs[j]? = some f → f.2.2.2.1 = false →
    (decVF x src o (oldF fs))[oldIx fs j]? = some (f.1, decV x src o f.2.2.2.2.old)
  | (n, a, b, c, e) :: fs, 0, f, h, hn => by cases h; simp only at hn; subst hn; rfl
  | (n, a, b, c, e) :: fs, j + 1, f, h, hn => by
    have ih := oldV_get (x := x) (src := src) (o := o) (fs := fs) (j := j) (by simpa using h) hn
    simp only [oldF, oldIx]
    cases c with
    | true => simp only [if_true, Nat.zero_add]; exact ih
    | false => simp only [Bool.false_eq_true, if_false, decVF, Nat.add_comm 1, List.getElem?_cons_succ]; exact ih

/-- The members of an object. -/
theorem struct_vrr {x : Ext} {src : Bytes} {o : Options} {fs : EFields}
    (ih : ∀ f ∈ fs, ∀ v V W, Wf src v → Unaware x src o f.2.2.2.2 v → Sees f.2.2.2.2 V W → RR (Sees f.2.2.2.2) (decV x src (some o) f.2.2.2.2.old v V) (decV x src (some o) f.2.2.2.2.new v W)) :
    ∀ {ms : List ((Nat × Nat) × JVal)} {Vs Ws : List Val}, WfM src ms → (∀ m ∈ ms, ∀ j P, KeySelects x src o (fs.map (·.1)) m.1 j → (UnawareF x src o fs)[j]? = some P → P m.2) → SeesF fs Vs Ws →
    RR (SeesF fs) (structV x src o (decVF x src (some o) (oldF fs)) ms Vs) (structV x src o (decVF x src (some o) (newF fs)) ms Ws)
  | [], Vs, Ws, _, _, h => .ok h
  | ((i, e), v) :: ms, Vs, Ws, hw, hu, h => by
    have ihm := fun {Vs Ws : List Val} => struct_vrr ih (ms := ms) (Vs := Vs) (Ws := Ws) hw.2.2 (fun m hm => hu m (List.mem_cons_of_mem _ hm))
    obtain ⟨name, hname, hsel, -⟩ := key_fun x o (fs.map (·.1)) hw.1
    simp only at hname hsel
    simp only [structV, hname, Widen.decVF_names, new_names]
    cases hj : findField x o ((fs.map (·.1)).zipIdx) name with
    | none =>
      rw [unknown_iff.2 (sel_none (unknown_iff.1 hj))]
      simp only []
      split
      · exact .err h
      · split
        · exact .unsup
        · exact ihm h
    | some j =>
      have hs := selects_iff.1 hj
      have hlt : j < fs.length := by have := sel_lt hs; simpa using this
      have hf : fs[j]? = some fs[j] := List.getElem?_eq_getElem hlt
      obtain ⟨hn, huf⟩ := hu _ List.mem_cons_self j _ ((hsel j).2 hj) (unawareF_get hf)
      rw [selects_iff.2 (sel_old hs hf hn)]
      obtain ⟨V, W, h1, h2, h3, h4⟩ := seesF_get hf hn h
      simp only [newV_get hf, oldV_get hf hn, h1, h2]
      have hr := ih _ (List.getElem_mem hlt) v V W hw.2.1 huf h3
      revert hr
      generalize decV x src (some o) _ v V = r
      generalize decV x src (some o) _ v W = s
      intro hr
      cases hr with
      | ok hp => exact ihm (h4 _ _ hp)
      | err hp => exact .err (h4 _ _ hp)
      | crash => exact .crash
      | unsup => exact .unsup

mutual
/-- The readings of the old and of the new type. -/
theorem dec_vev {x : Ext} {src : Bytes} {o : Options} : ∀ (e : ETy) (v : JVal) (V W : Val), Wf src v → Unaware x src o e v → Sees e V W → RR (Sees e) (decV x src (some o) e.old v V) (decV x src (some o) e.new v W)
  | .same t, v, V, W, _, _, h => by cases h; exact RR.refl _
  | .array n e, v, V, W, hw, hu, h => by
    cases v with
    | arr i vs z =>
      obtain ⟨Vs, Ws, rfl, rfl, hn, hp⟩ := h
      exact (elems_rr (fun v hv V W hs => dec_vev e v V W (wfL_mem hw.2.2.2.2 v (List.mem_of_mem_take hv)) (hu v (hn ▸ hv)) hs) hp).map fun a b hab => ⟨a, b, rfl, rfl, hab.1.trans hn, hab.2⟩
    | _ => exact leaf_rr (e := .array n e) rfl rfl (.inl rfl) _ h
  | .slice e, v, V, W, hw, hu, h => by
    cases v with
    | arr i vs z =>
      show RR (Sees (.slice e)) (sliceV _ _ _ vs V) (sliceV _ _ _ vs W)
      rw [← etype_eq e]
      exact slice_rr (zero_sees e) (fun v hv V W hs => dec_vev e v V W (wfL_mem hw.2.2.2.2 v hv) (hu v hv) hs) h
    | _ => exact leaf_rr (e := .slice e) rfl rfl (.inr (.inl rfl)) _ h
  | .map k e, v, V, W, hw, hu, h => by
    cases v with
    | obj i ms z =>
      have hp : AllPairs (fun a b : Key × Val => a.1 = b.1 ∧ Sees e a.2 b.2) (mapParts V) (mapParts W) := by
        rcases h with ⟨rfl, rfl⟩ | ⟨Vs, Ws, rfl, rfl, h⟩
        · exact trivial
        · exact h
      simp only [ETy.old, ETy.new, decV, ← etype_eq e]
      split
      · exact .unsup
      · exact (map_rr (zero_sees e) (fun a ha V W hs => dec_vev e a.2 V W (wfM_mem hw.2.2.2.2 a ha).2 (hu a ha) hs) hp).map fun a b hab => .inr ⟨a, b, rfl, rfl, hab⟩
    | _ => exact leaf_rr (e := .map k e) rfl rfl (.inr (.inr (.inl rfl))) _ h
  | .ptr e, v, V, W, hw, hu, h => by
    have key := (dec_vev e v _ _ hw hu (pointee_sees (zero_sees (x := x) e) h)).map (Q := Sees (.ptr e)) (f := .ptr) (g := .ptr) fun a b hab => .inr ⟨a, b, rfl, rfl, hab⟩
    cases v with
    | null => exact .ok (.inl ⟨rfl, rfl⟩)
    | _ => exact key
  | .struct n n' fs, v, V, W, hw, hu, h => by
    cases v with
    | obj i ms z =>
      obtain ⟨Vs, Ws, rfl, rfl, h⟩ := h
      simp only [ETy.old, ETy.new, decV]
      split
      · exact .ok ⟨_, _, rfl, rfl, h⟩
      · exact (struct_vrr (dec_vevF fs) hw.2.2.2.2 hu h).map fun a b hab => ⟨a, b, rfl, rfl, hab⟩
    | _ => exact leaf_rr (e := .struct n n' fs) rfl rfl (.inr (.inr (.inr rfl))) _ h
theorem dec_vevF {x : Ext} {src : Bytes} {o : Options} : ∀ (fs : EFields), ∀ f ∈ fs, ∀ v V W, Wf src v → Unaware x src o f.2.2.2.2 v → Sees f.2.2.2.2 V W →
    RR (Sees f.2.2.2.2) (decV x src (some o) f.2.2.2.2.old v V) (decV x src (some o) f.2.2.2.2.new v W)
  | (n, a, b, c, e) :: fs, f, hf, v, V, W, hw, hu, h => by
    rcases List.mem_cons.1 hf with rfl | hf
    · exact dec_vev e v V W hw hu h
    · exact dec_vevF fs f hf v V W hw hu h
end

theorem tameF_new {x : Ext} {src : Bytes} {o : Option Options} : ∀ {fs : EFields} {j : Nat} {f : Bytes × Nat × Nat × Bool × ETy}, fs[j]? = some f → (TameF x src o (newF fs))[j]? = some (Tame x src o f.2.2.2.2.new)
  | (n, a, b, c, e) :: fs, 0, f, h => by cases h; rfl
  | (n, a, b, c, e) :: fs, j + 1, f, h => by simp only [newF, TameF, List.getElem?_cons_succ]; exact tameF_new (by simpa using h)

theorem tameF_old {x : Ext} {src : Bytes} {o : Option Options} : ∀ {fs : EFields} {j : Nat} {f : Bytes × Nat × Nat × Bool × ETy}, fs[j]? = some f → f.2.2.2.1 = false →
    (TameF x src o (oldF fs))[oldIx fs j]? = some (Tame x src o f.2.2.2.2.old)
  | (n, a, b, c, e) :: fs, 0, f, h, hn => by cases h; simp only at hn; subst hn; rfl
  | (n, a, b, c, e) :: fs, j + 1, f, h, hn => by
    have ih := tameF_old (x := x) (src := src) (o := o) (fs := fs) (j := j) (by simpa using h) hn
    simp only [oldF, oldIx]
    cases c with
    | true => simp only [if_true, Nat.zero_add]; exact ih
    | false => simp only [Bool.false_eq_true, if_false, TameF, Nat.add_comm 1, List.getElem?_cons_succ]; exact ih

mutual
/-- The new type reaches no other spots. -/
theorem tame_ev {x : Ext} {src : Bytes} {o : Options} : ∀ (e : ETy) (v : JVal), Wf src v → Unaware x src o e v → Tame x src (some o) e.old v → Tame x src (some o) e.new v
  | .same t, v, _, _, h => h
  | .array n e, v, hw, hu, h => by
    cases v with
    | arr i vs z => exact fun w hm => tame_ev e w (wfL_mem hw.2.2.2.2 w (List.mem_of_mem_take hm)) (hu w hm) (h w hm)
    | _ => trivial
  | .slice e, v, hw, hu, h => by
    cases v with
    | arr i vs z => exact fun w hm => tame_ev e w (wfL_mem hw.2.2.2.2 w hm) (hu w hm) (h w hm)
    | _ => trivial
  | .map k e, v, hw, hu, h => by
    cases v with
    | obj i ms z => exact ⟨h.1, fun m hm => tame_ev e m.2 (wfM_mem hw.2.2.2.2 m hm).2 (hu m hm) (h.2 m hm)⟩
    | _ => trivial
  | .ptr e, v, _, _, h => h
  | .struct n n' fs, v, hw, hu, h => by
    cases v with
    | obj i ms z =>
      intro m hm o' ho' raw name hraw hkn
      have h0 := h m hm o' ho' raw name hraw hkn
      cases ho'
      show match findField x o (((newF fs).map (·.1)).zipIdx) name with
        | some j => ∀ T, (TameF x src (some o) (newF fs))[j]? = some T → T m.2
        | none => o.disallowUnknownFields = true ∨ hasObj m.2 = false
      rw [new_names]
      cases hj : findField x o ((fs.map (·.1)).zipIdx) name with
      | none =>
        rw [unknown_iff.2 (sel_none (unknown_iff.1 hj))] at h0
        exact h0
      | some j =>
        intro T hT
        have hs := selects_iff.1 hj
        have hlt : j < fs.length := by have := sel_lt hs; simpa using this
        have hf : fs[j]? = some fs[j] := List.getElem?_eq_getElem hlt
        have hwm := wfM_mem hw.2.2.2.2 m hm
        obtain ⟨name', hname, hsel, -⟩ := key_fun x o (fs.map (·.1)) hwm.1
        rw [hraw, Option.bind_some, hkn] at hname
        cases hname
        obtain ⟨hn, huf⟩ := hu m hm j _ ((hsel j).2 hj) (unawareF_get hf)
        rw [selects_iff.2 (sel_old hs hf hn)] at h0
        rw [tameF_new hf] at hT
        cases hT
        exact tame_evF fs _ (List.getElem_mem hlt) m.2 hwm.2 huf (h0 _ (tameF_old hf hn))
    | _ => trivial
theorem tame_evF {x : Ext} {src : Bytes} {o : Options} : ∀ (fs : EFields), ∀ f ∈ fs, ∀ v, Wf src v → Unaware x src o f.2.2.2.2 v → Tame x src (some o) f.2.2.2.2.old v → Tame x src (some o) f.2.2.2.2.new v
  | (n, a, b, c, e) :: fs, f, hf, v, hw, hu, h => by
    rcases List.mem_cons.1 hf with rfl | hf
    · exact tame_ev e v hw hu h
    · exact tame_evF fs f hf v hw hu h
end

/-! ## Recursive struct types -/

theorem tyE_old (e : ETy) : ∀ fs : ERFields, oldF (tyE e fs) = tyF e.old (oldER fs)
  | [] => rfl
  | (n, a, b, c, f) :: fs => by
    have ih := tyE_old e fs
    cases c with
    | true => simp only [tyE, List.map_cons, oldF, oldER, if_true] at ih ⊢; exact ih
    | false =>
      simp only [tyE, List.map_cons, oldF, oldER, Bool.false_eq_true, if_false, tyF] at ih ⊢
      rw [ih]
      cases f <;> rfl

theorem tyE_new (e : ETy) : ∀ fs : ERFields, newF (tyE e fs) = tyF e.new (newER fs)
  | [] => rfl
  | (n, a, b, c, f) :: fs => by
    have ih := tyE_new e fs
    simp only [tyE, List.map_cons, newF, newER, tyF] at ih ⊢
    rw [ih]
    cases f <;> rfl

theorem unrollE_old {s s' : Nat} {fs : ERFields} : ∀ n, (unrollE s s' fs n).old = unroll s (oldER fs) n
  | 0 => rfl
  | n + 1 => by
    show Ty.struct s (oldF (tyE (unrollE s s' fs n) fs)) = _
    rw [tyE_old, unrollE_old n]; rfl

theorem unrollE_new {s s' : Nat} {fs : ERFields} : ∀ n, (unrollE s s' fs n).new = unroll s' (newER fs) n
  | 0 => rfl
  | n + 1 => by
    show Ty.struct s' (newF (tyE (unrollE s s' fs n) fs)) = _
    rw [tyE_new, unrollE_new n]; rfl

theorem tyE_names (e : ETy) (fs : ERFields) : (tyE e fs).map (·.1) = fs.map (·.1) := by
  simp [tyE, Function.comp_def]

theorem oldER_names (e : ETy) : ∀ fs : ERFields, (oldER fs).map (·.1) = (oldF (tyE e fs)).map (·.1) := by
  intro fs; rw [tyE_old]; simp [tyF, Function.comp_def]

theorem newER_names (fs : ERFields) : (newER fs).map (·.1) = fs.map (·.1) := by
  simp [newER, Function.comp_def]

theorem oldER_get {e : ETy} : ∀ {fs : ERFields} {j : Nat} {f : Bytes × Nat × Nat × Bool × ERField}, fs[j]? = some f → f.2.2.2.1 = false →
    (oldER fs)[oldIx (tyE e fs) j]? = some (f.1, f.2.1, f.2.2.2.2.old)
  | (n, a, b, c, r) :: fs, 0, f, h, hn => by cases h; simp only at hn; subst hn; rfl
  | (n, a, b, c, r) :: fs, j + 1, f, h, hn => by
    have ih := oldER_get (e := e) (fs := fs) (j := j) (by simpa using h) hn
    simp only [tyE, List.map_cons, oldER, oldIx] at ih ⊢
    cases c with
    | true => simp only [if_true, Nat.zero_add]; exact ih
    | false => simp only [Bool.false_eq_true, if_false, Nat.add_comm 1, List.getElem?_cons_succ]; exact ih

theorem tameR_ev {x : Ext} {src : Bytes} {o : Options} {s s' : Nat} {fs : ERFields} : ∀ (n : Nat) (here top : Bool) (v : JVal), Wf src v → Unaware x src o (unrollE s s' fs (n + 1)) v →
    TameR x src (some o) (oldER fs) n here top v → TameR x src (some o) (newER fs) n here top v
  | 0, _, _, _, _, _, h => h
  | n + 1, here, top, v, hw, hu, h => by
    intro i ms k hv a m hm o' ho' raw name h1 h2
    have h0 := h i ms k hv a m hm o' ho' raw name h1 h2
    cases ho'
    subst hv
    have hmem : m ∈ ms := List.mem_of_getElem? hm
    have hwm := wfM_mem hw.2.2.2.2 m hmem
    rw [newER_names]
    rw [oldER_names (unrollE s s' fs (n + 1))] at h0
    cases hj : findField x o (fs.map (·.1)).zipIdx name with
    | none =>
      rw [unknown_iff.2 (sel_none (unknown_iff.1 (by rw [tyE_names]; exact hj)))] at h0
      exact h0
    | some j =>
      have hs := selects_iff.1 hj
      have hlt : j < fs.length := by have := sel_lt hs; simpa using this
      have hf : fs[j]? = some fs[j] := List.getElem?_eq_getElem hlt
      have hf' : (tyE (unrollE s s' fs (n + 1)) fs)[j]? = some (fs[j].1, fs[j].2.1, fs[j].2.2.1, fs[j].2.2.2.1, fs[j].2.2.2.2.ty (unrollE s s' fs (n + 1))) := by simp [tyE, hlt]
      obtain ⟨name', hname, hsel, -⟩ := key_fun x o (fs.map (·.1)) hwm.1
      rw [h1, Option.bind_some, h2] at hname
      cases hname
      obtain ⟨hn, huf⟩ := hu m hmem j _ (by rw [tyE_names]; exact (hsel j).2 hj) (unawareF_get hf')
      simp only at hn huf
      rw [selects_iff.2 (sel_old (by rw [tyE_names]; exact hs) hf' hn)] at h0
      have h3 := h0 _ (oldER_get hf hn)
      have e2 : (newER fs)[j]? = some (fs[j].1, fs[j].2.2.1, fs[j].2.2.2.2.new) := by simp [newER, hlt]
      intro f hff
      rw [e2] at hff; cases hff
      revert h3 huf
      generalize fs[j].2.2.2.2 = r
      intro huf h3
      have ih := tameR_ev (x := x) (src := src) (o := o) (s := s) (s' := s') (fs := fs) n
      cases r with
      | plain t => exact ⟨tame_ev t _ hwm.2 huf h3.1, h3.2⟩
      | ptr => exact ⟨fun i ms k he => ih _ _ _ hwm.2 huf (h3.1 i ms k he), h3.2⟩
      | slice =>
        refine ⟨fun i vs k he j w hw' => ⟨(h3.1 i vs k he j w hw').1, ?_⟩, h3.2⟩
        have hww := hwm.2
        rw [he] at hww huf
        exact ih _ _ _ (wfL_mem hww.2.2.2.2 w (List.mem_of_getElem? hw')) (huf w (List.mem_of_getElem? hw')) (h3.1 i vs k he j w hw').2
      | map k =>
        refine ⟨fun i ms e he => ?_, h3.2⟩
        obtain ⟨a1, a2, a3, a4, a5⟩ := h3.1 i ms e he
        have hww := hwm.2
        rw [he] at hww huf
        exact ⟨a1, a2, a3, a4, fun m hm => ⟨(a5 m hm).1, ih _ _ _ (wfM_mem hww.2.2.2.2 m hm).2 (huf m hm) (a5 m hm).2⟩⟩

end Verif.Proof.Evolve

import Verif.Proof.Shuffle
import Verif.Proof.EvolveRec
import Verif.Spec.ShuffleRec
/-!
# The fields of recursive struct types in another order
-/
namespace Verif.Proof.Shuffle
open Verif.Model Verif.Big Verif.Spec Verif.Proof Verif.Proof.Outcome Verif.Proof.Comp Verif.Proof.Safe Verif.Proof.Evolve

/-- The members of an object. -/
theorem struct_vrr {x : Ext} {src : Bytes} {o : Options} {fs : FFields} {order : List Nat} (hp : order.Perm (List.range fs.length)) (hA : Apart x (fs.map (·.1)))
    (ih : ∀ f ∈ fs, ∀ v V W, Wf src v → Moved f.2.2.2 V W → RR (Moved f.2.2.2) (decV x src (some o) f.2.2.2.old v V) (decV x src (some o) f.2.2.2.new v W)) :
    ∀ {ms : List ((Nat × Nat) × JVal)} {Vs Ws : List Val}, WfM src ms → MovedFs fs order Vs Ws →
    RR (MovedFs fs order) (structV x src o (decVF x src (some o) (oldG fs)) ms Vs) (structV x src o (decVF x src (some o) (pick order (newG fs))) ms Ws)
  | [], Vs, Ws, _, h => .ok h
  | ((i, e), v) :: ms, Vs, Ws, hw, h => by
    have ihm := fun {Vs Ws : List Val} => struct_vrr hp hA ih (ms := ms) (Vs := Vs) (Ws := Ws) hw.2.2
    obtain ⟨name, hname, -, -⟩ := key_fun x o (fs.map (·.1)) hw.1
    simp only at hname
    simp only [structV, hname, Widen.decVF_names, oldG_names, pick_map, newG_names]
    rcases find_pick (order := order) (o := o) (by rw [List.length_map]; exact hp) hA name with ⟨h1, h2⟩ | ⟨k, j, hk, h1, h2⟩
    · rw [h1, h2]
      simp only []
      split
      · exact .err h
      · split
        · exact .unsup
        · exact ihm h
    · have hlt : j < fs.length := perm_lt hp j (List.mem_of_getElem? hk)
      have hf : fs[j]? = some fs[j] := List.getElem?_eq_getElem hlt
      obtain ⟨V, W, g1, g2, g3, g4⟩ := moved_get hp h hk hf
      have hn : (pick order (newG fs))[k]? = some (fs[j].1, fs[j].2.2.1, fs[j].2.2.2.new) := by
        rw [pick_get (by rw [newG_length]; exact perm_lt hp), hk]
        exact newG_get hf
      simp only [h1, h2, Widen.decV_get (oldG_get hf), Widen.decV_get hn, g1, g2]
      have hr := ih _ (List.getElem_mem hlt) v V W hw.2.1 g3
      revert hr
      generalize decV x src (some o) _ v V = r
      generalize decV x src (some o) _ v W = s
      intro hr
      cases hr with
      | ok hp => exact ihm (g4 _ _ hp)
      | err hp => exact .err (g4 _ _ hp)
      | crash => exact .crash
      | unsup => exact .unsup

mutual
/-- The readings of both types. -/
theorem dec_vsh {x : Ext} {src : Bytes} {o : Options} : ∀ (e : FTy) (v : JVal) (V W : Val), e.Ok x → Wf src v → Moved e V W → RR (Moved e) (decV x src (some o) e.old v V) (decV x src (some o) e.new v W)
  | .same t, v, V, W, _, _, h => by cases h; exact RR.refl _
  | .array n e, v, V, W, ho, hw, h => by
    cases v with
    | arr i vs z =>
      obtain ⟨Vs, Ws, rfl, rfl, hn, hp⟩ := h
      exact (elems_rr (fun v hv V W hs => dec_vsh e v V W ho (wfL_mem hw.2.2.2.2 v (List.mem_of_mem_take hv)) hs) hp).map fun a b hab => ⟨a, b, rfl, rfl, hab.1.trans hn, hab.2⟩
    | _ => exact leaf_rr (e := .array n e) ho rfl rfl (.inl rfl) _ h
  | .slice e, v, V, W, ho, hw, h => by
    cases v with
    | arr i vs z =>
      show RR (Moved (.slice e)) (sliceV _ _ _ vs V) (sliceV _ _ _ vs W)
      rw [← etype_eq e]
      exact slice_rr (zero_moved e ho) (fun v hv V W hs => dec_vsh e v V W ho (wfL_mem hw.2.2.2.2 v hv) hs) h
    | _ => exact leaf_rr (e := .slice e) ho rfl rfl (.inr (.inl rfl)) _ h
  | .map k e, v, V, W, ho, hw, h => by
    cases v with
    | obj i ms z =>
      have hp : AllPairs (fun a b : Key × Val => a.1 = b.1 ∧ Moved e a.2 b.2) (mapParts V) (mapParts W) := by
        rcases h with ⟨rfl, rfl⟩ | ⟨Vs, Ws, rfl, rfl, h⟩
        · exact trivial
        · exact h
      simp only [FTy.old, FTy.new, decV, ← etype_eq e]
      split
      · exact .unsup
      · exact (map_rr (zero_moved e ho) (fun a ha V W hs => dec_vsh e a.2 V W ho (wfM_mem hw.2.2.2.2 a ha).2 hs) hp).map fun a b hab => .inr ⟨a, b, rfl, rfl, hab⟩
    | _ => exact leaf_rr (e := .map k e) ho rfl rfl (.inr (.inr (.inl rfl))) _ h
  | .ptr e, v, V, W, ho, hw, h => by
    have key := (dec_vsh (o := o) e v _ _ ho hw (Evolve.pointee_sees (zero_moved (x := x) e ho) h)).map (Q := Moved (.ptr e)) (f := .ptr) (g := .ptr) fun a b hab => .inr ⟨a, b, rfl, rfl, hab⟩
    cases v with
    | null => exact .ok (.inl ⟨rfl, rfl⟩)
    | _ => exact key
  | .struct n n' fs order, v, V, W, ho, hw, h => by
    cases v with
    | obj i ms z =>
      obtain ⟨Vs, Ws, rfl, rfl, h⟩ := h
      simp only [FTy.old, FTy.new, decV]
      split
      · exact .ok ⟨_, _, rfl, rfl, h⟩
      · exact (struct_vrr ho.1 ho.2.1 (dec_vshG fs ho.2.2.2) hw.2.2.2.2 h).map fun a b hab => ⟨a, b, rfl, rfl, hab⟩
    | _ => exact leaf_rr (e := .struct n n' fs order) ho rfl rfl (.inr (.inr (.inr rfl))) _ h
theorem dec_vshG {x : Ext} {src : Bytes} {o : Options} : ∀ (fs : FFields), OkG x fs → ∀ f ∈ fs, ∀ v V W, Wf src v → Moved f.2.2.2 V W →
    RR (Moved f.2.2.2) (decV x src (some o) f.2.2.2.old v V) (decV x src (some o) f.2.2.2.new v W)
  | (n, a, b, e) :: fs, ho, f, hf, v, V, W, hw, h => by
    rcases List.mem_cons.1 hf with rfl | hf
    · exact dec_vsh e v V W ho.1 hw h
    · exact dec_vshG fs ho.2 f hf v V W hw h
end

mutual
/-- The other type reaches no other spots. -/
theorem tame_sh {x : Ext} {src : Bytes} {o : Options} : ∀ (e : FTy) (v : JVal), e.Ok x → Tame x src (some o) e.old v → Tame x src (some o) e.new v
  | .same t, v, _, h => h
  | .array n e, v, ho, h => by
    cases v with
    | arr i vs z => exact fun w hm => tame_sh e w ho (h w hm)
    | _ => trivial
  | .slice e, v, ho, h => by
    cases v with
    | arr i vs z => exact fun w hm => tame_sh e w ho (h w hm)
    | _ => trivial
  | .map k e, v, ho, h => by
    cases v with
    | obj i ms z => exact ⟨h.1, fun m hm => tame_sh e m.2 ho (h.2 m hm)⟩
    | _ => trivial
  | .ptr e, v, _, h => h
  | .struct n n' fs order, v, ho, h => by
    cases v with
    | obj i ms z =>
      intro m hm o' ho' raw name hraw hkn
      have h0 := h m hm o' ho' raw name hraw hkn
      cases ho'
      obtain ⟨hp, hA, -, hG⟩ := ho
      show match findField x o (((pick order (newG fs)).map (·.1)).zipIdx) name with
        | some j => ∀ T, (TameF x src (some o) (pick order (newG fs)))[j]? = some T → T m.2
        | none => o.disallowUnknownFields = true ∨ hasObj m.2 = false
      rw [pick_map, newG_names]
      rw [oldG_names] at h0
      rcases find_pick (order := order) (o := o) (by rw [List.length_map]; exact hp) hA name with ⟨h1, h2⟩ | ⟨k, j, hk, h1, h2⟩
      · rw [h2]
        rw [h1] at h0
        exact h0
      · rw [h2]
        rw [h1] at h0
        intro T hT
        have hlt : j < fs.length := perm_lt hp j (List.mem_of_getElem? hk)
        have hf : fs[j]? = some fs[j] := List.getElem?_eq_getElem hlt
        have hn : (pick order (newG fs))[k]? = some (fs[j].1, fs[j].2.2.1, fs[j].2.2.2.new) := by
          rw [pick_get (by rw [newG_length]; exact perm_lt hp), hk]
          exact newG_get hf
        rw [Widen.tameF_get hn] at hT
        cases hT
        exact tame_shG fs hG _ (List.getElem_mem hlt) m.2 (h0 _ (Widen.tameF_get (oldG_get hf)))
    | _ => trivial
theorem tame_shG {x : Ext} {src : Bytes} {o : Options} : ∀ (fs : FFields), OkG x fs → ∀ f ∈ fs, ∀ v, Tame x src (some o) f.2.2.2.old v → Tame x src (some o) f.2.2.2.new v
  | (n, a, b, e) :: fs, ho, f, hf, v, h => by
    rcases List.mem_cons.1 hf with rfl | hf
    · exact tame_sh e v ho.1 h
    · exact tame_shG fs ho.2 f hf v h
end

/-! ## Recursive struct types -/

theorem tyO_old (e : FTy) : ∀ fs : FRFields, oldG (tyO e fs) = tyF e.old (oldFR fs)
  | [] => rfl
  | (n, a, b, f) :: fs => by
    have ih := tyO_old e fs
    simp only [tyO, List.map_cons, oldG, oldFR, tyF] at ih ⊢
    rw [ih]
    cases f <;> rfl

theorem tyO_new (e : FTy) : ∀ fs : FRFields, newG (tyO e fs) = tyF e.new (fs.map fun f => (f.1, f.2.2.1, f.2.2.2.new))
  | [] => rfl
  | (n, a, b, f) :: fs => by
    have ih := tyO_new e fs
    simp only [tyO, List.map_cons, newG, tyF] at ih ⊢
    rw [ih]
    cases f <;> rfl

theorem unrollO_old {s s' : Nat} {fs : FRFields} {order : List Nat} : ∀ n, (unrollO s s' fs order n).old = unroll s (oldFR fs) n
  | 0 => rfl
  | n + 1 => by
    show Ty.struct s (oldG (tyO (unrollO s s' fs order n) fs)) = _
    rw [tyO_old, unrollO_old n]; rfl

theorem unrollO_new {s s' : Nat} {fs : FRFields} {order : List Nat} : ∀ n, (unrollO s s' fs order n).new = unroll s' (newFR fs order) n
  | 0 => rfl
  | n + 1 => by
    show Ty.struct s' (pick order (newG (tyO (unrollO s s' fs order n) fs))) = Ty.struct s' (tyF (unroll s' (newFR fs order) n) (newFR fs order))
    rw [tyO_new, unrollO_new n]
    simp only [newFR, tyF, pick_map]

theorem tyO_length (e : FTy) (fs : FRFields) : (tyO e fs).length = fs.length := by simp [tyO]
theorem tyO_names (e : FTy) (fs : FRFields) : (tyO e fs).map (·.1) = fs.map (·.1) := by simp [tyO, Function.comp_def]

theorem ok_tyO {x : Ext} {e : FTy} (he : e.Ok x) : ∀ {fs : FRFields}, (∀ f ∈ fs, f.2.2.2.Ok x) → OkG x (tyO e fs)
  | [], _ => trivial
  | (n, a, b, f) :: fs, h => by
    refine ⟨?_, ok_tyO he fun f hf => h f (List.mem_cons_of_mem _ hf)⟩
    have := h _ List.mem_cons_self
    cases f with
    | plain t => exact this
    | _ => exact he

theorem unrollO_ok {x : Ext} {s s' : Nat} {fs : FRFields} {order : List Nat} (h : OkFR x s s' fs order) : ∀ n, (unrollO s s' fs order n).Ok x
  | 0 => trivial
  | n + 1 => ⟨by rw [tyO_length]; exact h.1, by rw [tyO_names]; exact h.2.1, h.2.2.1, ok_tyO (unrollO_ok h n) h.2.2.2⟩

theorem tameR_sh {x : Ext} {src : Bytes} {o : Options} {s s' : Nat} {fs : FRFields} {order : List Nat} (hok : OkFR x s s' fs order) : ∀ (n : Nat) (here top : Bool) (v : JVal),
    TameR x src (some o) (oldFR fs) n here top v → TameR x src (some o) (newFR fs order) n here top v
  | 0, _, _, _, h => h
  | n + 1, here, top, v, h => by
    intro i ms k hv a m hm o' ho' raw name h1 h2
    have h0 := h i ms k hv a m hm o' ho' raw name h1 h2
    cases ho'
    obtain ⟨hp, hA, -, hG⟩ := id hok
    have e1 : (newFR fs order).map (·.1) = pick order (fs.map (·.1)) := by simp [newFR, pick_map, Function.comp_def]
    have e2 : (oldFR fs).map (·.1) = fs.map (·.1) := by simp [oldFR, Function.comp_def]
    rw [e1]
    rw [e2] at h0
    rcases find_pick (order := order) (o := o) (by rw [List.length_map]; exact hp) hA name with ⟨g1, g2⟩ | ⟨k', j, hk, g1, g2⟩
    · rw [g2]
      rw [g1] at h0
      exact h0
    · rw [g2]
      rw [g1] at h0
      have hlt : j < fs.length := perm_lt hp j (List.mem_of_getElem? hk)
      have hn : (newFR fs order)[k']? = some (fs[j].1, fs[j].2.2.1, fs[j].2.2.2.new) := by
        rw [newFR, pick_get (by rw [List.length_map]; exact perm_lt hp), hk]
        simp [hlt]
      have h3 := h0 (fs[j].1, fs[j].2.1, fs[j].2.2.2.old) (by simp [oldFR, hlt])
      have h4 := hG fs[j] (List.getElem_mem hlt)
      intro f hff
      rw [hn] at hff; cases hff
      revert h3 h4
      generalize fs[j].2.2.2 = r
      intro h3 h4
      have ih := tameR_sh (src := src) (o := o) hok n
      cases r with
      | plain t => exact ⟨tame_sh t _ h4 h3.1, h3.2⟩
      | ptr => exact ⟨fun i ms k he => ih _ _ _ (h3.1 i ms k he), h3.2⟩
      | slice => exact ⟨fun i vs k he j w hw => ⟨(h3.1 i vs k he j w hw).1, ih _ _ _ (h3.1 i vs k he j w hw).2⟩, h3.2⟩
      | map k =>
        refine ⟨fun i ms e he => ?_, h3.2⟩
        obtain ⟨a1, a2, a3, a4, a5⟩ := h3.1 i ms e he
        exact ⟨a1, a2, a3, a4, fun m hm => ⟨(a5 m hm).1, ih _ _ _ (a5 m hm).2⟩⟩

end Verif.Proof.Shuffle

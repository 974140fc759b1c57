import Verif.Proof.InsideTypes
import Verif.Proof.RecIdeal
import Verif.Proof.RecFragment
/-!
# Recursive struct types inside other types: the reading on values
-/
namespace Verif.Proof.Inside
open Verif.Model Verif.Big Verif.Spec Verif.Proof.Mem Verif.Proof.Val Verif.Proof.Means Verif.Proof.RecIdeal Verif.Proof.Fragment Verif.Proof.Types

mutual
/-- `decX` on values. -/
def decXV (x : Ext) (src : Bytes) (o : Option Options) (n : Nat) : RTy → JVal → Val → R Val
  | .plain t => decV x src o t
  | .self size fs => decRV x src o size fs n
  | .array m e => fun v V =>
    match v, V with
    | .arr _ vs _, .arr Ws => if Ws.length ≤ m then (elemsV (decXV x src o n e) (vs.take m) Ws).map .arr else .unsup
    | v, V => leafV x src (.array m (e.ty n)) v V
  | .slice e => fun v V =>
    match v with
    | .arr _ vs _ => sliceV (decXV x src o n e) (zeroV x (e.ty n)) e.etype.isElemComposite vs V
    | v => leafV x src (.slice (e.ty n)) v V
  | .map k e => fun v V =>
    match v with
    | .obj _ ms _ => if k = .other ∧ ms ≠ [] then .unsup
      else (mapV x src (decXV x src o n e) k (zeroV x (e.ty n)) e.cleared ms (mapParts V)).map .map
    | v => leafV x src (.map k (e.ty n)) v V
  | .struct size fields => fun v V =>
    match v, V with
    | .obj _ ms _, .struct Ws =>
      if ms = [] then .ok (.struct Ws)
      else match o with
        | none => .crash
        | some o' => (structV x src o' (decXVF x src o n fields) ms Ws).map .struct
    | v, V => leafV x src (.struct size (tysX n fields)) v V
/-- JSON names and decoders of the fields of a struct. -/
def decXVF (x : Ext) (src : Bytes) (o : Option Options) (n : Nat) : List (Bytes × Nat × RTy) → List (Bytes × (JVal → Val → R Val))
  | [] => []
  | (nm, _, t) :: fs => (nm, decXV x src o n t) :: decXVF x src o n fs
end

theorem tysX_get (n : Nat) : ∀ (fs : List (Bytes × Nat × RTy)) (j : Nat), (tysX n fs)[j]? = (fs[j]?).map fun f => (f.1, f.2.1, f.2.2.ty n)
  | [], j => by simp [tysX]
  | (_, _, _) :: fs, 0 => by simp [tysX]
  | (_, _, _) :: fs, j + 1 => by simp [tysX, tysX_get n fs j]

theorem tysX_names (n : Nat) : ∀ (fs : List (Bytes × Nat × RTy)), (tysX n fs).map (·.1) = fs.map (·.1)
  | [] => rfl
  | (_, _, _) :: fs => by simp [tysX, tysX_names n fs]

theorem decXF_get (x : Ext) (src : Bytes) (o : Option Options) (n : Nat) : ∀ (fs : List (Bytes × Nat × RTy)) (j : Nat), (decXF x src o n fs)[j]? = (fs[j]?).map fun f => (f.1, f.2.1, decX x src o n f.2.2)
  | [], j => by simp [decXF]
  | (_, _, _) :: fs, 0 => by simp [decXF]
  | (_, _, _) :: fs, j + 1 => by simp [decXF, decXF_get x src o n fs j]

theorem decXF_names (x : Ext) (src : Bytes) (o : Option Options) (n : Nat) : ∀ (fs : List (Bytes × Nat × RTy)), (decXF x src o n fs).map (·.1) = fs.map (·.1)
  | [] => rfl
  | (_, _, _) :: fs => by simp [decXF, decXF_names x src o n fs]

theorem decXVF_get (x : Ext) (src : Bytes) (o : Option Options) (n : Nat) : ∀ (fs : List (Bytes × Nat × RTy)) (j : Nat), (decXVF x src o n fs)[j]? = (fs[j]?).map fun f => (f.1, decXV x src o n f.2.2)
  | [], j => by simp [decXVF]
  | (_, _, _) :: fs, 0 => by simp [decXVF]
  | (_, _, _) :: fs, j + 1 => by simp [decXVF, decXVF_get x src o n fs j]

theorem decXVF_names (x : Ext) (src : Bytes) (o : Option Options) (n : Nat) : ∀ (fs : List (Bytes × Nat × RTy)), (decXVF x src o n fs).map (·.1) = fs.map (·.1)
  | [] => rfl
  | (_, _, _) :: fs => by simp [decXVF, decXVF_names x src o n fs]

theorem tameXF_get (x : Ext) (src : Bytes) (o : Option Options) (n : Nat) : ∀ (fs : List (Bytes × Nat × RTy)) (j : Nat), (TameXF x src o n fs)[j]? = (fs[j]?).map fun f => TameX x src o n f.2.2 (f.2.1 == 0)
  | [], j => by simp [TameXF]
  | (_, _, _) :: fs, 0 => by simp [TameXF]
  | (_, _, _) :: fs, j + 1 => by simp [TameXF, tameXF_get x src o n fs j]

theorem composite_eq (n : Nat) : ∀ e : RTy, (e.ty n).etype.isElemComposite = e.etype.isElemComposite
  | .plain _ | .self _ _ | .array _ _ | .slice _ | .map _ _ | .struct _ _ => rfl

theorem cleared_eq (n : Nat) : ∀ e : RTy, ((e.ty n).etype == .struct) = e.cleared
  | .plain t => by
    simp only [RTy.ty, RTy.cleared, RTy.etype]
    have := Sim.etype_ne t
    cases t <;> first | rfl | exact absurd rfl this
  | .self _ _ | .array _ _ | .slice _ | .map _ _ | .struct _ _ => rfl

mutual
/-- The two readings correspond. -/
theorem decX_rel {x : Ext} {src : Bytes} {o : Option Options} (n : Nat) : ∀ (ty : RTy), OKX x ty → Corr (ty.size x) (Holds x (ty.ty n)) (decX x src o n ty) (decXV x src o n ty)
  | .plain t, hok => dec_rel t hok
  | .self size fs, hok => decR_rel hok n
  | .array m e, hok => fun v b off V h => by
    have hoe := OKX.ok (ty := e) hok n
    simp only [decX, decXV, RTy.size, RTy.ty] at h ⊢
    have hleaf := leaf_rel (ty := .array m (e.ty n)) (src := src) (v := v) hoe h (.inr (.inr (.inr (.inl ⟨m, _, rfl⟩)))) (by simp)
    simp only [Ty.size, ty_size] at hleaf
    cases v with
    | arr i vs k =>
      simp only [Holds] at h
      obtain ⟨hl, es, hV, hes, hh⟩ := h
      subst hV
      simp only []
      rw [if_pos (by omega)]
      rw [← hes]
      rw [← hes, ty_size] at hl
      rw [ty_size] at hh
      have hloc := loc_holds (x := x) (ty := e.ty n) hoe
      rw [ty_size] at hloc
      have hE := elems_rel hloc (f := decX x src o n e) (g := decXV x src o n e) (vs.take es.length) es b off
        (by rw [List.length_take]; omega) (fun v _ => decX_rel n e hok v) hh hl
      refine hE.mapR (fun b' a ⟨q1, q2⟩ hf => ?_)
      simp only [Holds]
      rw [ty_size]
      exact ⟨by rw [hf.1]; omega, a, rfl, by omega, q1⟩
    | null i e => exact hleaf
    | bool c i e => exact hleaf
    | num c i e => exact hleaf
    | str i e => exact hleaf
    | obj i ms e => exact hleaf
  | .slice e, hok => fun v b off V h => by
    have hW := Sim.W_pos x
    have hoe := OKX.ok (ty := e) hok n
    simp only [decX, decXV, RTy.size, RTy.ty] at h ⊢
    have hleaf := leaf_rel (ty := .slice (e.ty n)) (src := src) (v := v) hoe h (.inl (by simp only [Ty.size]; omega)) (by simp)
    simp only [Ty.size] at hleaf
    cases v <;> first | exact hleaf | skip
    have hloc := loc_holds (x := x) (ty := e.ty n) hoe
    have hz := hz_holds (x := x) (ty := e.ty n) hoe
    simp only [Holds] at h
    rw [ty_size] at hloc hz h
    have := slice_rel (x := x) hloc hz (decX_rel (src := src) (o := o) n e hok) (cp := e.etype.isElemComposite) (vs := ‹_›) h
    simp only [Holds]
    rw [ty_size]
    exact this
  | .map k e, hok => fun v b off V h => by
    have hW := Sim.W_pos x
    have hoe := OKX.ok (ty := e) hok n
    simp only [decX, decXV, RTy.size, RTy.ty] at h ⊢
    have hleaf := leaf_rel (ty := .map k (e.ty n)) (src := src) (v := v) hoe h (.inl (by simp only [Ty.size]; omega)) (by simp)
    simp only [Ty.size] at hleaf
    cases v <;> first | exact hleaf | skip
    rename_i ii ms kk
    have hloc := loc_holds (x := x) (ty := e.ty n) hoe
    have hz := hz_holds (x := x) (ty := e.ty n) hoe
    simp only [Holds] at h ⊢
    obtain ⟨b1, es, h1, h2, h3, h4⟩ := ensure_rel h.1 h.2
    rw [ty_size] at hloc hz h3
    rw [h1]
    simp only []
    by_cases hk : k = .other ∧ ms ≠ []
    · rw [if_pos hk, if_pos hk]; trivial
    · rw [if_neg hk, if_neg hk]
      have hl1 : off + x.W ≤ b1.length := by have := h4.1; have := h.1; omega
      have hM := map_rel (x := x) (src := src) hloc hz (decX_rel (src := src) (o := o) n e hok) (k := k) (fresh := e.cleared) ms b1 off es _ hl1 h2 h3
      generalize mapB x src (decX x src o n e) k (e.size x) e.cleared ms b1 off = rb at hM ⊢
      generalize mapV x src (decXV x src o n e) k (zeroV x (e.ty n)) e.cleared ms (mapParts V) = rv at hM ⊢
      rw [ty_size]
      cases rb <;> cases rv <;> simp only [Rel, R.map] at hM ⊢
      · obtain ⟨⟨q1, es', q2, q3⟩, q4⟩ := hM
        exact ⟨⟨q1, .inr ⟨es', _, q2, rfl, q3⟩⟩, h4.trans q4⟩
      · obtain ⟨r1, r2, ⟨q1, es', q2, q3⟩, q4⟩ := hM
        exact ⟨r1, r2, ⟨q1, .inr ⟨es', _, q2, rfl, q3⟩⟩, h4.trans q4⟩
  | .struct size fields, hok => fun v b off V h => by
    simp only [decX, decXV, RTy.size, RTy.ty] at h ⊢
    have hof : OKF x size (tysX n fields) := hok.1 n
    have hleaf := leaf_rel (ty := .struct size (tysX n fields)) (src := src) (v := v) hof h (.inr (.inr (.inr (.inr ⟨size, _, rfl⟩)))) (by simp)
    simp only [Ty.size] at hleaf
    have h' := h
    simp only [Holds] at h
    obtain ⟨hl, Ws, hV, hh⟩ := h
    subst hV
    cases v with
    | obj i ms e =>
      simp only []
      by_cases hms : ms = []
      · rw [if_pos hms, if_pos hms]; exact ⟨h', Frm.refl _ _ _⟩
      · rw [if_neg hms, if_neg hms]
        cases o with
        | none => trivial
        | some o' =>
          have := struct_relG (x := x) (src := src) (o' := o') hof (F := decXF x src (some o') n fields) (G := decXVF x src (some o') n fields)
            (by rw [decXF_names, tysX_names]) (by rw [decXVF_names, tysX_names]) (fun j f hf => by
              rw [tysX_get] at hf
              cases hfj : fields[j]? with
              | none => rw [hfj] at hf; cases hf
              | some g =>
                rw [hfj] at hf; cases hf
                refine ⟨_, _, by rw [decXF_get, hfj]; rfl, by rw [decXVF_get, hfj]; rfl, ?_⟩
                have := decX_relF (src := src) (o := some o') n fields hok.2 j g hfj
                simp only [ty_size]
                exact this) ms b off Ws hl hh
          refine this.mapR (fun b' a hp _ => ?_)
          simp only [Holds]
          exact ⟨hp.1, a, rfl, hp.2⟩
    | null i e => exact hleaf
    | bool c i e => exact hleaf
    | num c i e => exact hleaf
    | str i e => exact hleaf
    | arr i ms e => exact hleaf
theorem decX_relF {x : Ext} {src : Bytes} {o : Option Options} (n : Nat) : ∀ (fs : List (Bytes × Nat × RTy)), OKXs x fs →
    ∀ (j : Nat) (f : Bytes × Nat × RTy), fs[j]? = some f → Corr (f.2.2.size x) (Holds x (f.2.2.ty n)) (decX x src o n f.2.2) (decXV x src o n f.2.2)
  | [], _, j, f, h => by simp at h
  | (nm, fo, t) :: fs, hok, j, f, h => by
    simp only [OKXs] at hok
    cases j with
    | zero => simp at h; subst h; exact decX_rel n t hok.1
    | succ j => exact decX_relF n fs hok.2 j f (by simpa using h)
end

mutual
theorem decX_ne {x : Ext} {src : Bytes} {o : Option Options} {n : Nat} : ∀ (ty : RTy) (z : Bool) (v : JVal), TameX x src o n ty z v → ∀ (b : Block) (off : Nat), decX x src o n ty v b off ≠ .unsup
  | .plain t, z, v, h, b, off => dec_ne t v b off h
  | .self size fs, z, v, h, b, off => decR_ne n z z v h b off
  | .array m e, z, v, h, b, off => by
    cases v <;> simp only [decX]
    case arr i vs k =>
      simp only [TameX] at h
      exact elemsB_ne _ _ _ (fun w hw b off => decX_ne e false w (h.2 w hw) b off)
    all_goals exact leafB_ne (by simp) (by simp) _
  | .slice e, z, v, h, b, off => by
    cases v <;> simp only [decX]
    case arr i vs k =>
      simp only [TameX] at h
      exact sliceB_ne (fun w hw b off => decX_ne e false w (h.2 w hw) b off)
    all_goals exact leafB_ne (by simp) (by simp) _
  | .map k e, z, v, h, b, off => by
    cases v <;> simp only [decX]
    case obj i ms k' =>
      simp only [TameX] at h
      split
      · simp
      · rw [if_neg (fun hc => hc.2 (h.1 hc.1))]
        exact mapB_ne _ _ _ (fun m hm b off => decX_ne e true m.2 (h.2 m hm) b off)
    all_goals exact leafB_ne (by simp) (by simp) _
  | .struct size fs, z, v, h, b, off => by
    cases v <;> simp only [decX]
    case obj i ms k' =>
      simp only [TameX] at h
      split
      · simp
      · cases o with
        | none => simp
        | some o' =>
          simp only []
          refine structB_ne _ _ _ (fun m hm raw name hr hn => ?_)
          have := h m hm o' rfl raw name hr hn
          rw [decXF_names]
          cases hf : findField x o' ((fs.map (·.1)).zipIdx) name with
          | none => rw [hf] at this; exact this
          | some j =>
            rw [hf] at this
            simp only []
            intro f hfj b off
            rw [decXF_get] at hfj
            cases hj : fs[j]? with
            | none => rw [hj] at hfj; cases hfj
            | some g =>
              rw [hj] at hfj; cases hfj
              exact decXF_ne fs j g hj (g.2.1 == 0) m.2 (this _ (by rw [tameXF_get, hj]; rfl)) b off
    all_goals exact leafB_ne (by simp) (by simp) _
theorem decXF_ne {x : Ext} {src : Bytes} {o : Option Options} {n : Nat} : ∀ (fs : List (Bytes × Nat × RTy)) (j : Nat) (f : Bytes × Nat × RTy), fs[j]? = some f → ∀ (z : Bool) (v : JVal),
    TameX x src o n f.2.2 z v → ∀ (b : Block) (off : Nat), decX x src o n f.2.2 v b off ≠ .unsup
  | [], j, f, h => by simp at h
  | (nm, fo, t) :: fs, j, f, h => by
    cases j with
    | zero => simp at h; subst h; exact fun z v => decX_ne t z v
    | succ j => exact decXF_ne fs j f (by simpa using h)
end

theorem elems_like_take {f g : JVal → Val → R Val} : ∀ (m : Nat) (vs : List JVal) (Ws : List Val), Ws.length ≤ m → (∀ v ∈ vs.take m, ∀ W, Like (f v W) (g v W)) →
    Like (elemsV f (vs.take m) Ws) (elemsV g vs Ws)
  | m, [], Ws, _, _ => by simp only [List.take_nil]; cases Ws <;> rfl
  | m, v :: vs, [], _, _ => by cases m <;> rfl
  | 0, v :: vs, W :: Ws, hl, _ => by simp at hl
  | m + 1, v :: vs, W :: Ws, hl, h => by
    have ih := elems_like_take m vs Ws (by simpa using hl) fun v hv => h v (List.mem_cons_of_mem _ hv)
    have h1 := h v List.mem_cons_self W
    simp only [List.take_succ_cons, elemsV]
    generalize f v W = r at h1
    cases r with
    | ok a => rw [show g v W = .ok a from h1]; exact like_map _ ih
    | err i e a => obtain ⟨b, hb⟩ := h1; rw [hb]; exact ⟨_, rfl⟩
    | crash => rw [show g v W = .crash from h1]; rfl
    | unsup => trivial

mutual
/-- The reading is the one of the unrolled type. -/
theorem decX_like {x : Ext} {src : Bytes} {o : Option Options} {n : Nat} : ∀ (ty : RTy) (z : Bool) (v : JVal), TameX x src o n ty z v → ∀ V, Like (decXV x src o n ty v V) (decV x src o (ty.ty n) v V)
  | .plain t, z, v, h, V => like_refl _
  | .self size fs, z, v, h, V => rec_like n z z v h V
  | .array m e, z, v, h, V => by
    cases v with
    | arr i vs k =>
      cases V with
      | arr Ws =>
        simp only [TameX] at h
        simp only [decXV, RTy.ty, decV]
        split
        · rename_i hl
          exact like_map _ (elems_like_take m vs Ws hl fun w hw W => decX_like e false w (h.2 w hw) W)
        · trivial
      | _ => exact like_refl _
    | _ => exact like_refl _
  | .slice e, z, v, h, V => by
    cases v with
    | arr i vs k =>
      simp only [TameX] at h
      simp only [decXV, RTy.ty, decV, composite_eq]
      exact slice_like fun w hw W => decX_like e false w (h.2 w hw) W
    | _ => exact like_refl _
  | .map k e, z, v, h, V => by
    cases v with
    | obj i ms k' =>
      simp only [TameX] at h
      simp only [decXV, RTy.ty, decV, cleared_eq]
      split
      · trivial
      · exact like_map _ (map_like ms _ fun m hm W => decX_like e true m.2 (h.2 m hm) W)
    | _ => exact like_refl _
  | .struct size fs, z, v, h, V => by
    cases v with
    | obj i ms k' =>
      cases V with
      | struct Ws =>
        simp only [TameX] at h
        simp only [decXV, RTy.ty, decV]
        split
        · rfl
        · cases o with
          | none => rfl
          | some o' =>
            refine like_map _ (struct_like ?_ ms Ws ?_)
            · rw [decVF_names, tysX_names, decXVF_names]
            · intro m hm raw name j h1 h2 hj f g hf hg W
              have := h m hm o' rfl raw name h1 h2
              rw [decXVF_names] at hj
              rw [hj] at this
              rw [decVF_get, tysX_get] at hg
              rw [decXVF_get] at hf
              cases hfj : fs[j]? with
              | none => rw [hfj] at hf; cases hf
              | some q =>
                rw [hfj] at hf hg
                cases hf; cases hg
                exact decXF_like fs j q hfj (q.2.1 == 0) m.2 (this _ (by rw [tameXF_get, hfj]; rfl)) W
      | _ => exact like_refl _
    | _ => exact like_refl _
theorem decXF_like {x : Ext} {src : Bytes} {o : Option Options} {n : Nat} : ∀ (fs : List (Bytes × Nat × RTy)) (j : Nat) (f : Bytes × Nat × RTy), fs[j]? = some f → ∀ (z : Bool) (v : JVal),
    TameX x src o n f.2.2 z v → ∀ V, Like (decXV x src o n f.2.2 v V) (decV x src o (f.2.2.ty n) v V)
  | [], j, f, h => by simp at h
  | (nm, fo, t) :: fs, j, f, h => by
    cases j with
    | zero => simp at h; subst h; exact fun z v => decX_like t z v
    | succ j => exact decXF_like fs j f (by simpa using h)
end

/-- The cases of `TameDocX`. -/
theorem tameDoc_cases {x : Ext} {src : Bytes} {o : Option Options} {n : Nat} {ty : RTy} {v : JVal} (h : TameDocX x src o n ty v) : TameX x src o n ty true v ∨
    ∃ size fs i vs k, ty = .slice (.self size fs) ∧ v = .arr i vs k ∧ ∀ (j : Nat) w, vs[j]? = some w → TameR x src o fs n (j == 0) (j == 0) w := by
  match ty, h with
  | .slice (.self size fs), h =>
    cases v with
    | arr i vs k => exact .inr ⟨size, fs, i, vs, k, rfl, rfl, h⟩
    | _ => exact .inl (by simp only [TameX])
  | .slice (.plain _), h | .slice (.array _ _), h | .slice (.slice _), h | .slice (.map _ _), h | .slice (.struct _ _), h
  | .plain _, h | .self _ _, h | .array _ _, h | .map _ _, h | .struct _ _, h => exact .inl h

theorem decDoc_ne {x : Ext} {src : Bytes} {o : Option Options} {n : Nat} {ty : RTy} {v : JVal} (h : TameDocX x src o n ty v) (b : Block) (off : Nat) : decX x src o n ty v b off ≠ .unsup := by
  rcases tameDoc_cases h with h | ⟨size, fs, i, vs, k, rfl, rfl, h⟩
  · exact decX_ne ty true v h b off
  · simp only [decX]
    refine sliceB_ne fun w hw b off => ?_
    obtain ⟨j, hj⟩ := List.getElem?_of_mem hw
    exact decR_ne n _ _ w (h j w hj) b off

theorem decDoc_like {x : Ext} {src : Bytes} {o : Option Options} {n : Nat} {ty : RTy} {v : JVal} (h : TameDocX x src o n ty v) (V : Val) :
    Like (decXV x src o n ty v V) (decV x src o (ty.ty n) v V) := by
  rcases tameDoc_cases h with h | ⟨size, fs, i, vs, k, rfl, rfl, h⟩
  · exact decX_like ty true v h V
  · simp only [decXV, RTy.ty, decV]
    refine slice_like fun w hw W => ?_
    obtain ⟨j, hj⟩ := List.getElem?_of_mem hw
    exact rec_like n _ _ w (h j w hj) W

end Verif.Proof.Inside

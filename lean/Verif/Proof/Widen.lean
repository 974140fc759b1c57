import Verif.Spec.Widen
import Verif.Proof.Evolve
import Verif.Props.Scalars
/-!
# Wider integers: the readings of both types
-/
namespace Verif.Proof.Widen
open Verif.Model Verif.Big Verif.Spec Verif.Proof Verif.Proof.Outcome Verif.Proof.Comp Verif.Proof.Safe Verif.Proof.Evolve

abbrev WFields := List (Bytes × Nat × Nat × WTy)

/-- The same outcome, or an error of the first that is one of `E`. -/
def RW {α : Type} (E : Err → Prop) (r s : R α) : Prop := s = r ∨ ∃ i e a, r = .err i e a ∧ E e

theorem RW.map {α β : Type} {E : Err → Prop} {r s : R α} (f : α → β) (h : RW E r s) : RW E (r.map f) (s.map f) := by
  rcases h with rfl | ⟨i, e, a, rfl, h⟩
  · exact .inl rfl
  · exact .inr ⟨i, e, f a, rfl, h⟩

theorem elems_rw {E : Err → Prop} {f g : JVal → Val → R Val} : ∀ {vs : List JVal} {Ws : List Val}, (∀ v ∈ vs, ∀ W, RW E (f v W) (g v W)) → RW E (elemsV f vs Ws) (elemsV g vs Ws)
  | [], _, _ => .inl rfl
  | v :: vs, [], _ => .inl rfl
  | v :: vs, W :: Ws, h => by
    have ih := elems_rw (vs := vs) (Ws := Ws) fun w hw => h w (List.mem_cons_of_mem _ hw)
    simp only [elemsV]
    rcases h v List.mem_cons_self W with h1 | ⟨i, e, a, h1, h2⟩
    · rw [h1]
      cases f v W with
      | ok a => exact ih.map _
      | _ => exact .inl rfl
    · rw [h1]
      exact .inr ⟨i, e, _, rfl, h2⟩

theorem slice_rw {E : Err → Prop} {f g : JVal → Val → R Val} {z : Val} {c : Bool} {vs : List JVal} {V : Val} (h : ∀ v ∈ vs, ∀ W, RW E (f v W) (g v W)) : RW E (sliceV f z c vs V) (sliceV g z c vs V) := by
  simp only [sliceV]
  split
  · exact .inl rfl
  · exact (elems_rw h).map _

theorem sliceOf_rw {E : Err → Prop} {f g : JVal → Val → R Val} {z : Val} {vs : List JVal} {V : Val} (h : ∀ v ∈ vs, ∀ W, RW E (f v W) (g v W)) : RW E (sliceOfV f z vs V) (sliceOfV g z vs V) := by
  simp only [sliceOfV]
  split
  · exact .inl rfl
  · split
    · rcases elems_rw (Ws := List.replicate vs.length z) h with h1 | ⟨i, e, a, h1, h2⟩
      · rw [h1]; exact .inl rfl
      · rw [h1]; exact .inr ⟨i, e, _, rfl, h2⟩
    · rcases elems_rw (Ws := ((sliceParts V).1 ++ (sliceParts V).2).take vs.length) h with h1 | ⟨i, e, a, h1, h2⟩
      · rw [h1]; exact .inl rfl
      · rw [h1]; exact .inr ⟨i, e, _, rfl, h2⟩

theorem map_rw {x : Ext} {src : Bytes} {E : Err → Prop} {f g : JVal → Val → R Val} {z : Val} {k : KeyTy} {fresh : Bool} : ∀ {ms : List ((Nat × Nat) × JVal)} {m : List (Key × Val)},
    (∀ a ∈ ms, ∀ W, RW E (f a.2 W) (g a.2 W)) → RW E (mapV x src f k z fresh ms m) (mapV x src g k z fresh ms m)
  | [], _, _ => .inl rfl
  | ((i, e), v) :: ms, m, h => by
    have ih := fun m => map_rw (x := x) (src := src) (k := k) (z := z) (fresh := fresh) (ms := ms) (m := m) fun w hw => h w (List.mem_cons_of_mem _ hw)
    have h0 := h _ List.mem_cons_self
    simp only [mapV]
    cases (Model.slice src (i + 1) (e - 1)).bind fun key => k.key x key with
    | none => exact .inl rfl
    | some r => cases r with
      | error er => exact .inl rfl
      | ok k' =>
        simp only at h0 ⊢
        rcases h0 (if fresh then z else (lookupV k' m).getD z) with h1 | ⟨i, e, a, h1, h2⟩
        · rw [h1]
          cases f v _ with
          | ok a => exact ih _
          | _ => exact .inl rfl
        · rw [h1]
          exact .inr ⟨i, e, _, rfl, h2⟩

theorem oldW_names : ∀ fs : WFields, (oldW fs).map (·.1) = fs.map (·.1)
  | [] => rfl
  | (n, _, _, e) :: fs => by simp only [oldW, List.map_cons, oldW_names fs]

theorem newW_names : ∀ fs : WFields, (newW fs).map (·.1) = fs.map (·.1)
  | [] => rfl
  | (n, _, _, e) :: fs => by simp only [newW, List.map_cons, newW_names fs]

theorem oldW_get : ∀ {fs : WFields} {j : Nat} {f : Bytes × Nat × Nat × WTy}, fs[j]? = some f → (oldW fs)[j]? = some (f.1, f.2.1, f.2.2.2.old)
  | (n, a, b, e) :: fs, 0, f, h => by cases h; rfl
  | (n, a, b, e) :: fs, j + 1, f, h => by simp only [oldW, List.getElem?_cons_succ]; exact oldW_get (by simpa using h)

theorem newW_get : ∀ {fs : WFields} {j : Nat} {f : Bytes × Nat × Nat × WTy}, fs[j]? = some f → (newW fs)[j]? = some (f.1, f.2.2.1, f.2.2.2.new)
  | (n, a, b, e) :: fs, 0, f, h => by cases h; rfl
  | (n, a, b, e) :: fs, j + 1, f, h => by simp only [newW, List.getElem?_cons_succ]; exact newW_get (by simpa using h)

theorem decW_get {x : Ext} {src : Bytes} {o : Option Options} : ∀ {fs : List (Bytes × Nat × Ty)} {j : Nat} {f : Bytes × Nat × Ty}, fs[j]? = some f → (decPVF x src o fs)[j]? = some (f.1, decPV x src o f.2.2)
  | (n, a, e) :: fs, 0, f, h => by cases h; rfl
  | (n, a, e) :: fs, j + 1, f, h => by simp only [decPVF, List.getElem?_cons_succ]; exact decW_get (by simpa using h)

theorem rightW_get {x : Ext} {src : Bytes} {o : Option Options} : ∀ {fs : List (Bytes × Nat × Ty)} {j : Nat} {f : Bytes × Nat × Ty}, fs[j]? = some f → (RightF x src o fs)[j]? = some (Right x src o f.2.2)
  | (n, a, e) :: fs, 0, f, h => by cases h; rfl
  | (n, a, e) :: fs, j + 1, f, h => by simp only [RightF, List.getElem?_cons_succ]; exact rightW_get (by simpa using h)

mutual
theorem zero_eq {x : Ext} : ∀ e : WTy, zeroV x e.new = zeroV x e.old
  | .same _ => rfl
  | .int _ _ => rfl
  | .ints _ _ => rfl
  | .quoted _ _ => rfl
  | .array n e => by simp only [WTy.old, WTy.new, zeroV, zero_eq e]
  | .slice e => rfl
  | .map _ e => rfl
  | .keys _ _ e => rfl
  | .ptr e => rfl
  | .struct n n' fs => by simp only [WTy.old, WTy.new, zeroV, zero_eqW fs]
theorem zero_eqW {x : Ext} : ∀ fs : WFields, zeroF x (newW fs) = zeroF x (oldW fs)
  | [] => rfl
  | (n, a, b, e) :: fs => by simp only [newW, oldW, zeroF, zero_eq e, zero_eqW fs]
end

theorem comp_w (e : WTy) : e.new.etype.isElemComposite = e.old.etype.isElemComposite := by cases e <;> rfl

theorem fresh_w (e : WTy) : (e.new.etype == .struct) = (e.old.etype == .struct) := by cases e <;> rfl

/-! ## Integer literals -/

theorem onInteger_good {x : Ext} {k : IKind} {s : Bytes} {v : Int} (h1 : IsIntLit s v) (h2 : InRange x.is64 k v) (h3 : k.signed = false → s.head? ≠ some 45) :
    onInteger x (.scalar (.int k)) s = .store (k.bits x.is64 / 8) (.int v) := by
  have hp : parseInt x.is64 k s = some (v, false) := by
    unfold InRange at h2
    cases hk : k.signed with
    | true =>
      rw [hk, if_pos rfl] at h2
      exact (Props.C03_signed_parse_partial x.is64 k hk s v h1).1 h2
    | false =>
      rw [hk, if_neg (by decide)] at h2
      cases h1 with
      | pos h =>
        refine (Props.C01_unsigned_parse x.is64 k hk s h).1 ?_
        have := h2.2
        exact_mod_cast this
      | neg h => exact absurd rfl (h3 hk)
  cases hk : k.signed with
  | true => simp [onInteger, hk, storeInt, hp]
  | false =>
    cases h1 with
    | pos h =>
      obtain ⟨c, cs, rfl⟩ : ∃ c cs, s = c :: cs := by cases h <;> exact ⟨_, _, rfl⟩
      have : c ≠ 45 := fun hc => h3 hk (by rw [hc]; rfl)
      simp [onInteger, hk, storeInt, hp, this]
    | neg h => exact absurd rfl (h3 hk)

theorem onInteger_bad {x : Ext} {k : IKind} (hc : Checked x.is64 k) {s : Bytes} {v : Int} (h1 : IsIntLit s v) (h2 : ¬ InRange x.is64 k v) (h3 : k.signed = false → s.head? ≠ some 45) :
    onInteger x (.scalar (.int k)) s = .err .integerOverflow := by
  have hp : ∃ y, parseInt x.is64 k s = some (y, true) := by
    unfold InRange at h2
    cases hk : k.signed with
    | true =>
      rw [hk, if_pos rfl] at h2
      have hb : k.bits x.is64 = 64 := by rcases hc with hn | hn; (rw [hk] at hn; cases hn); exact hn
      rw [hb] at h2
      refine (Props.C02_signed64_parse x.is64 k ?_ s v h1).2 (by simp at h2 ⊢; omega)
      revert hk hb
      cases k <;> simp [IKind.signed, IKind.bits]
    | false =>
      rw [hk, if_neg (by decide)] at h2
      cases h1 with
      | pos hnat =>
        refine (Props.C01_unsigned_parse x.is64 k hk s hnat).2 ?_
        have hh : ¬ ((digitsVal s : Int) < 2 ^ k.bits x.is64) := fun hc => h2 ⟨Int.natCast_nonneg _, hc⟩
        have : ¬ (digitsVal s < 2 ^ k.bits x.is64) := fun hc => hh (by exact_mod_cast hc)
        omega
      | neg h => exact absurd rfl (h3 hk)
  obtain ⟨y, hp⟩ := hp
  cases hk : k.signed with
  | true => simp [onInteger, hk, storeInt, hp]
  | false =>
    cases h1 with
    | pos h =>
      obtain ⟨c, cs, rfl⟩ : ∃ c cs, s = c :: cs := by cases h <;> exact ⟨_, _, rfl⟩
      have : c ≠ 45 := fun hc => h3 hk (by rw [hc]; rfl)
      simp [onInteger, hk, storeInt, hp, this]
    | neg h => exact absurd rfl (h3 hk)

theorem inRange_iff {is64 : Bool} {k : IKind} {v : Int} : InRange is64 k v ↔ IKind.lowest is64 k ≤ v ∧ v < IKind.beyond is64 k := by
  unfold InRange IKind.lowest IKind.beyond
  cases k.signed <;> simp

theorem inRange_wider {is64 : Bool} {k k' : IKind} (h : Wider is64 k k') {v : Int} (hv : InRange is64 k v) : InRange is64 k' v := by
  rw [inRange_iff] at hv ⊢
  exact ⟨Int.le_trans h.1 hv.1, Int.lt_of_lt_of_le hv.2 h.2⟩

/-- The errors that a wider type may avoid: overflow, and with `mixed` (signed types for unsigned ones) the one for a minus sign. -/
def Avoids (mixed : Bool) (e : Err) : Prop := e = .integerOverflow ∨ (mixed = true ∧ e = .unexpectedValue)

theorem not_unsigned {is64 : Bool} {k k' : IKind} (h : Wider is64 k k') (hk : k.signed = true) : k'.signed = true := by
  cases hk' : k'.signed with
  | true => rfl
  | false =>
    have h1 := h.1
    simp only [IKind.lowest, hk, hk', if_pos, Bool.false_eq_true, if_false] at h1
    have : (0 : Int) < 2 ^ (k.bits is64 - 1) := Int.pow_pos (by decide)
    omega

theorem int_rw {x : Ext} {mixed : Bool} {k k' : IKind} (hf : Fit x.is64 mixed k k') {s : Bytes} {v : Int} (h1 : IsIntLit s v) (idx : Nat) (z : Val) (W : Val) :
    RW (Avoids mixed) (actV idx z none W (onInteger x (.scalar (.int k)) s)) (actV idx z none W (onInteger x (.scalar (.int k')) s)) := by
  obtain ⟨hw, hc, hm⟩ := hf
  by_cases h3 : k.signed = false → s.head? ≠ some 45
  · by_cases h2 : InRange x.is64 k v
    · have h3' : k'.signed = false → s.head? ≠ some 45 := fun hk' => h3 (by
        cases hk : k.signed with
        | false => rfl
        | true => rw [not_unsigned hw hk] at hk'; cases hk')
      rw [onInteger_good h1 h2 h3, onInteger_good h1 (inRange_wider hw h2) h3']
      exact .inl rfl
    · rw [onInteger_bad hc h1 h2 h3]
      exact .inr ⟨_, _, _, rfl, .inl rfl⟩
  · have hk : k.signed = false := Decidable.byContradiction fun h => h3 fun h' => absurd h' h
    have hs : s.head? = some 45 := Decidable.byContradiction fun h => h3 fun _ => h
    obtain ⟨cs, rfl⟩ : ∃ cs, s = 45 :: cs := by
      cases s with
      | nil => cases hs
      | cons c cs => cases hs; exact ⟨cs, rfl⟩
    rcases hm with rfl | hm
    · exact .inr ⟨idx, .unexpectedValue, W, by simp [onInteger, hk, actV], .inr ⟨rfl, rfl⟩⟩
    · exact .inl (by simp [onInteger, hk, ← hm])

theorem scalar_rw {x : Ext} {src : Bytes} {mixed : Bool} {k k' : IKind} (hf : Fit x.is64 mixed k k') {v : JVal} (hw : Wf src v) (W : Val) :
    RW (Avoids mixed) (leafV x src (.scalar (.int k)) v W) (leafV x src (.scalar (.int k')) v W) := by
  cases v with
  | num b i e =>
    have hs := Doc.slice_text hw.1 hw.2.1
    cases b with
    | true =>
      obtain ⟨a, ha⟩ := Props.integer_intLit (hw.2.2.2.1 rfl)
      simp only [leafV, leaf, hs, Ty.etype]
      exact int_rw hf ha _ _ _
    | false => exact .inl (by simp only [leafV, leaf, hs]; rfl)
  | str i e => exact .inl (by simp only [leafV, leaf, Doc.slice_inner hw]; rfl)
  | _ => exact .inl rfl

theorem elem_rw {x : Ext} {src : Bytes} {mixed : Bool} {k k' : IKind} (hf : Fit x.is64 mixed k k') {v : JVal} (hw : Wf src v) (W : Val) :
    RW (Avoids mixed) (actV v.index (zeroS (.int k)) none W (elemAct x src (.int k) v)) (actV v.index (zeroS (.int k')) none W (elemAct x src (.int k') v)) := by
  cases v with
  | num b i e =>
    have hs := Doc.slice_text hw.1 hw.2.1
    cases b with
    | true =>
      obtain ⟨a, ha⟩ := Props.integer_intLit (hw.2.2.2.1 rfl)
      simp only [elemAct, hs, if_true, zeroS]
      exact int_rw hf ha _ _ _
    | false => exact .inl rfl
  | _ => exact .inl rfl

/-! ## Types -/

/-- The members of an object. -/
theorem struct_rw {x : Ext} {src : Bytes} {o : Options} {E : Err → Prop} {fs : WFields} (ih : ∀ f ∈ fs, ∀ v V, Wf src v → RW E (decPV x src (some o) f.2.2.2.old v V) (decPV x src (some o) f.2.2.2.new v V)) :
    ∀ {ms : List ((Nat × Nat) × JVal)} {Vs : List Val}, WfM src ms →
    RW E (structV x src o (decPVF x src (some o) (oldW fs)) ms Vs) (structV x src o (decPVF x src (some o) (newW fs)) ms Vs)
  | [], Vs, _ => .inl rfl
  | ((i, e), v) :: ms, Vs, hw => by
    have ihm := fun {Vs : List Val} => struct_rw ih (ms := ms) (Vs := Vs) hw.2.2
    simp only [structV, Evolve.decPVF_names, oldW_names, newW_names]
    cases (Model.slice src (i + 1) (e - 1)).bind (keyName o) with
    | none => exact .inl rfl
    | some name =>
      simp only
      cases hj : findField x o (fs.map (·.1)).zipIdx name with
      | none =>
        simp only
        split
        · exact .inl rfl
        · split
          · exact .inl rfl
          · exact ihm
      | some j =>
        have hlt : j < fs.length := by have := sel_lt (selects_iff.1 hj); simpa using this
        have hf : fs[j]? = some fs[j] := List.getElem?_eq_getElem hlt
        simp only [decW_get (oldW_get hf), decW_get (newW_get hf)]
        cases Vs[j]? with
        | none => exact .inl rfl
        | some V =>
          simp only
          rcases ih _ (List.getElem_mem hlt) v V hw.2.1 with h1 | ⟨i, e, a, h1, h2⟩
          · rw [h1]
            cases decPV x src (some o) _ v V with
            | ok a => exact ihm
            | _ => exact .inl rfl
          · rw [h1]
            exact .inr ⟨i, e, _, rfl, h2⟩

theorem leaf_w {x : Ext} {src : Bytes} {e : WTy} (he : e.new.etype = e.old.etype) (v : JVal) (V : Val) : leafV x src e.new v V = leafV x src e.old v V := by
  simp only [leafV, he, zero_eq]

mutual
/-- The readings of both types. -/
theorem dec_w {x : Ext} {src : Bytes} {o : Options} {mixed : Bool} : ∀ (e : WTy) (v : JVal) (V : Val), e.Ok (Fit x.is64 mixed) Eq → Wf src v → RW (Avoids mixed) (decPV x src (some o) e.old v V) (decPV x src (some o) e.new v V)
  | .same t, v, V, _, _ => .inl rfl
  | .int k k', v, V, ho, hw => scalar_rw ho hw V
  | .quoted k k', v, V, ho, hw => by cases ho; exact .inl rfl
  | .ints k k', v, V, ho, hw => by
    cases v with
    | arr i vs z => exact sliceOf_rw fun v hv W => elem_rw ho (wfL_mem hw.2.2.2.2 v hv) W
    | num b i e => exact .inl (by cases b <;> simp only [WTy.old, WTy.new, decPV, decV, leafV, leaf, Doc.slice_text hw.1 hw.2.1] <;> rfl)
    | str i e => exact .inl (by simp only [WTy.old, WTy.new, decPV, decV, leafV, leaf, Doc.slice_inner hw]; rfl)
    | _ => exact .inl rfl
  | .array n e, v, V, ho, hw => by
    have hl : leafV x src (WTy.array n e).new v V = leafV x src (WTy.array n e).old v V := leaf_w (e := .array n e) rfl v V
    cases v with
    | arr i vs z =>
      cases V with
      | arr Vs => exact (elems_rw fun v hv W => dec_w e v W ho (wfL_mem hw.2.2.2.2 v hv)).map _
      | _ => exact .inl hl
    | _ => exact .inl hl
  | .slice e, v, V, ho, hw => by
    have hl : leafV x src (WTy.slice e).new v V = leafV x src (WTy.slice e).old v V := leaf_w (e := .slice e) rfl v V
    cases v with
    | arr i vs z =>
      show RW _ (sliceV _ _ _ vs V) (sliceV _ _ _ vs V)
      rw [zero_eq, comp_w]
      exact slice_rw fun v hv W => dec_w e v W ho (wfL_mem hw.2.2.2.2 v hv)
    | _ => exact .inl hl
  | .map k e, v, V, ho, hw => by
    have hl : leafV x src (WTy.map k e).new v V = leafV x src (WTy.map k e).old v V := leaf_w (e := .map k e) rfl v V
    cases v with
    | obj i ms z =>
      simp only [WTy.old, WTy.new, decPV, zero_eq, fresh_w]
      split
      · exact .inl rfl
      · exact (map_rw fun a ha W => dec_w e a.2 W ho (wfM_mem hw.2.2.2.2 a ha).2).map _
    | _ => exact .inl hl
  | .keys k k' e, v, V, ho, hw => by
    obtain ⟨rfl, ho⟩ := ho
    have hl : leafV x src (WTy.keys k k e).new v V = leafV x src (WTy.keys k k e).old v V := leaf_w (e := .keys k k e) rfl v V
    cases v with
    | obj i ms z =>
      simp only [WTy.old, WTy.new, decPV, zero_eq, fresh_w]
      split
      · exact .inl rfl
      · exact (map_rw fun a ha W => dec_w e a.2 W ho (wfM_mem hw.2.2.2.2 a ha).2).map _
    | _ => exact .inl hl
  | .ptr e, v, V, ho, hw => by
    have key := (dec_w (o := o) e v (zeroV x e.old) ho hw).map Val.ptr
    cases v with
    | null => exact .inl rfl
    | _ => simp only [WTy.old, WTy.new, decPV, zero_eq]; exact key
  | .struct n n' fs, v, V, ho, hw => by
    have hl : leafV x src (WTy.struct n n' fs).new v V = leafV x src (WTy.struct n n' fs).old v V := leaf_w (e := .struct n n' fs) rfl v V
    cases v with
    | obj i ms z =>
      cases V with
      | struct Vs =>
        simp only [WTy.old, WTy.new, decPV]
        split
        · exact .inl rfl
        · exact (struct_rw (dec_wW fs ho.2) hw.2.2.2.2).map _
      | _ => exact .inl hl
    | _ => exact .inl hl
theorem dec_wW {x : Ext} {src : Bytes} {o : Options} {mixed : Bool} : ∀ (fs : WFields), OkW (Fit x.is64 mixed) Eq fs → ∀ f ∈ fs, ∀ v V, Wf src v →
    RW (Avoids mixed) (decPV x src (some o) f.2.2.2.old v V) (decPV x src (some o) f.2.2.2.new v V)
  | (n, a, b, e) :: fs, ho, f, hf, v, V, hw => by
    rcases List.mem_cons.1 hf with rfl | hf
    · exact dec_w e v V ho.1 hw
    · exact dec_wW fs ho.2 f hf v V hw
end

theorem size_w {x : Ext} {P Q : IKind → IKind → Prop} : ∀ e : WTy, e.Ok P Q → e.new.size x = 0 → e.old.size x = 0
  | .same t, _, h => h
  | .int k k', _, h => by
    simp only [WTy.new, Ty.size, SKind.bytes] at h
    revert h
    cases k' <;> simp [IKind.bits] <;> cases x.is64 <;> simp
  | .ints _ _, _, h => h
  | .quoted k k', _, h => by
    simp only [WTy.new, Ty.size, SKind.bytes] at h
    revert h
    cases k' <;> simp [IKind.bits] <;> cases x.is64 <;> simp
  | .array n e, h, h0 => by
    have := size_w (x := x) e h
    simp only [WTy.old, WTy.new, Ty.size, Nat.mul_eq_zero] at h0 ⊢
    exact h0.imp id this
  | .slice e, _, h => h
  | .map k e, _, h => h
  | .keys _ _ e, _, h => h
  | .ptr e, _, h => h
  | .struct n n' fs, h, h0 => h.1 h0

mutual
/-- The other type reaches no other spots. -/
theorem right_w {x : Ext} {src : Bytes} {o : Options} {P Q : IKind → IKind → Prop} : ∀ (e : WTy) (p : Place) (v : JVal), e.Ok P Q → Right x src (some o) e.old p v → Right x src (some o) e.new p v
  | .same t, p, v, _, h => h
  | .int _ _, p, v, _, h => h
  | .ints _ _, p, v, _, h => h
  | .quoted _ _, p, v, _, h => h
  | .array n e, p, v, ho, h => by
    cases v with
    | arr i vs z =>
      simp only [WTy.old, WTy.new, Right] at h ⊢
      split at h
      · rename_i hl
        rw [if_pos hl]
        exact butLast_imp (fun w _ hr => right_w e .inside w ho hr) (fun w _ hr => right_w e .last w ho hr) h
      · rename_i hl
        rw [if_neg hl]
        exact fun w hwm => right_w e .inside w ho (h w hwm)
    | _ => trivial
  | .slice e, p, v, ho, h => by
    cases v with
    | arr i vs z => exact butLast_imp (fun w _ hr => right_w e .inside w ho hr) (fun w _ hr => right_w e .last w ho hr) h
    | _ => trivial
  | .map k e, p, v, ho, h => by
    cases v with
    | obj i ms z => exact ⟨h.1, butLast_imp (fun m _ hr => right_w e .inside m.2 ho hr) (fun m _ hr => right_w e p m.2 ho hr) h.2⟩
    | _ => trivial
  | .keys k k' e, p, v, ho, h => by
    cases v with
    | obj i ms z => exact ⟨fun hk => by (cases hk), butLast_imp (fun m _ hr => right_w e .inside m.2 ho.2 hr) (fun m _ hr => right_w e p m.2 ho.2 hr) h.2⟩
    | _ => trivial
  | .ptr e, p, v, ho, h => by
    have hs := size_w (x := x) e ho
    have ih := fun p => right_w (x := x) (src := src) (o := o) e p v ho
    cases v with
    | null => trivial
    | _ =>
      refine ⟨fun h0 => h.1 (hs h0), ?_⟩
      cases p with
      | inside => exact h.2
      | last => exact ih _ h.2
      | final => exact ih _ h.2
  | .struct n n' fs, p, v, ho, h => by
    cases v with
    | obj i ms z =>
      intro o' ho'
      have h0 := h o' ho'
      cases ho'
      have key : ∀ p, ∀ m ∈ ms, RightM x src o ((oldW fs).map (·.1)) (RightF x src (some o) (oldW fs)) p m → RightM x src o ((newW fs).map (·.1)) (RightF x src (some o) (newW fs)) p m := by
        intro p m hm h0 raw name hraw hkn
        have h0 := h0 raw name hraw hkn
        rw [newW_names]
        rw [oldW_names] at h0
        cases hj : findField x o (fs.map (·.1)).zipIdx name with
        | none => rw [hj] at h0; exact h0
        | some j =>
          rw [hj] at h0
          have hlt : j < fs.length := by have := sel_lt (selects_iff.1 hj); simpa using this
          have hf : fs[j]? = some fs[j] := List.getElem?_eq_getElem hlt
          intro T hT
          rw [rightW_get (newW_get hf)] at hT
          cases hT
          exact right_wW fs ho.2 _ (List.getElem_mem hlt) p m.2 (h0 _ (rightW_get (oldW_get hf)))
      exact butLast_imp (key .inside) (key p) h0
    | _ => trivial
theorem right_wW {x : Ext} {src : Bytes} {o : Options} {P Q : IKind → IKind → Prop} : ∀ (fs : WFields), OkW P Q fs → ∀ f ∈ fs, ∀ p v, Right x src (some o) f.2.2.2.old p v → Right x src (some o) f.2.2.2.new p v
  | (n, a, b, e) :: fs, ho, f, hf, p, v, h => by
    rcases List.mem_cons.1 hf with rfl | hf
    · exact right_w e p v ho.1 h
    · exact right_wW fs ho.2 f hf p v h
end

/-! ## Documents with literals in range -/

theorem kept_signed {is64 : Bool} {k k' : IKind} (h : Wider is64 k k') {s : Bytes} (h3 : k.signed = false → s.head? ≠ some 45) : k'.signed = false → s.head? ≠ some 45 := fun hk' => h3 (by
  cases hk : k.signed with
  | false => rfl
  | true => rw [not_unsigned h hk] at hk'; cases hk')

theorem int_rl {x : Ext} {k k' : IKind} (hf : Wider x.is64 k k') {s : Bytes} (h : TakenRight x.is64 k s) (idx : Nat) (z : Val) (W : Val) :
    RW (Avoids true) (actV idx z none W (onInteger x (.scalar (.int k)) s)) (actV idx z none W (onInteger x (.scalar (.int k')) s)) := by
  obtain ⟨v, h1, h2 | h2⟩ := h
  · exact int_rw ⟨hf, h2, .inl rfl⟩ h1 idx z W
  · by_cases h3 : k.signed = false → s.head? ≠ some 45
    · rw [onInteger_good h1 h2 h3, onInteger_good h1 (inRange_wider hf h2) (kept_signed hf h3)]
      exact .inl rfl
    · have hk : k.signed = false := Decidable.byContradiction fun h => h3 fun h' => absurd h' h
      exact int_rw ⟨hf, .inl hk, .inl rfl⟩ h1 idx z W

/-- A quoted integer: both types store the same, or the first refuses it. -/
theorem quoted_rl {x : Ext} {k k' : IKind} (hf : Wider x.is64 k k') {s : Bytes} (h : TakenRight x.is64 k s) : quotedInt x k' s = quotedInt x k s ∨ quotedInt x k s = some none := by
  obtain ⟨v, h1, h2⟩ := h
  by_cases hq : QuotedOK x.is64 k s v
  · exact .inl (by rw [Props.quotedInt_good hq, Props.quotedInt_good (k := k') ⟨h1, inRange_wider hf hq.2.1, kept_signed hf hq.2.2⟩])
  · refine .inr (Props.quotedInt_bad h1 ?_ hq)
    rcases h2 with h2 | h2
    · exact h2
    · exact .inl (Decidable.byContradiction fun hk => hq ⟨h1, h2, fun hk' => absurd hk' hk⟩)

theorem scalar_rl {x : Ext} {src : Bytes} {o : Options} {k k' : IKind} (hf : Wider x.is64 k k') {v : JVal} (hw : Wf src v) (hl : (WTy.int k k').Literals x src o v) (W : Val) :
    RW (Avoids true) (leafV x src (.scalar (.int k)) v W) (leafV x src (.scalar (.int k')) v W) := by
  cases v with
  | num b i e =>
    have hs := Doc.slice_text hw.1 hw.2.1
    cases b with
    | true =>
      simp only [leafV, leaf, hs, Ty.etype]
      exact int_rl hf hl _ _ _
    | false => exact .inl (by simp only [leafV, leaf, hs]; rfl)
  | str i e => exact .inl (by simp only [leafV, leaf, Doc.slice_inner hw]; rfl)
  | _ => exact .inl rfl

theorem elem_rl {x : Ext} {src : Bytes} {k k' : IKind} (hf : Wider x.is64 k k') {v : JVal} (hw : Wf src v) (hl : ∀ i e, v = .num true i e → TakenRight x.is64 k (text src i e)) (W : Val) :
    RW (Avoids true) (actV v.index (zeroS (.int k)) none W (elemAct x src (.int k) v)) (actV v.index (zeroS (.int k')) none W (elemAct x src (.int k') v)) := by
  cases v with
  | num b i e =>
    have hs := Doc.slice_text hw.1 hw.2.1
    cases b with
    | true =>
      simp only [elemAct, hs, if_true, zeroS]
      exact int_rl hf (hl i e rfl) _ _ _
    | false => exact .inl rfl
  | _ => exact .inl rfl

theorem quotedV_rl {x : Ext} {src : Bytes} {o : Options} {k k' : IKind} (hf : Wider x.is64 k k') {v : JVal} (hw : Wf src v) (hl : (WTy.quoted k k').Literals x src o v) (W : Val) :
    RW (Avoids true) (decPV x src (some o) (.quoted (.int k)) v W) (decPV x src (some o) (.quoted (.int k')) v W) := by
  cases v with
  | num b i e => exact .inl (by cases b <;> simp only [decPV, decV, leafV, leaf, Doc.slice_text hw.1 hw.2.1] <;> rfl)
  | str i e =>
    show RW _ (decV x src (some o) (.quoted (.int k)) (.str i e) W) (decV x src (some o) (.quoted (.int k')) (.str i e) W)
    rcases hl with rfl | hl
    · exact .inl rfl
    · rw [Props.quotedInt_leaf hw, Props.quotedInt_leaf hw]
      rcases quoted_rl hf hl with h | h
      · rw [h]; exact .inl rfl
      · rw [h]; exact .inr ⟨_, _, _, rfl, .inr ⟨rfl, rfl⟩⟩
  | _ => exact .inl rfl

theorem keys_rl {x : Ext} {src : Bytes} {f g : JVal → Val → R Val} {z : Val} {k k' : IKind} (hf : Wider x.is64 k k') {fresh : Bool} : ∀ {ms : List ((Nat × Nat) × JVal)} {m : List (Key × Val)},
    (∀ a ∈ ms, WfStr src a.1.1 a.1.2 ∧ (k = k' ∨ TakenRight x.is64 k (inner src a.1.1 a.1.2)) ∧ ∀ W, RW (Avoids true) (f a.2 W) (g a.2 W)) →
    RW (Avoids true) (mapV x src f (.int k) z fresh ms m) (mapV x src g (.int k') z fresh ms m)
  | [], _, _ => .inl rfl
  | ((i, e), v) :: ms, m, h => by
    have ih := fun m => keys_rl hf (x := x) (src := src) (f := f) (g := g) (z := z) (fresh := fresh) (ms := ms) (m := m) fun w hw => h w (List.mem_cons_of_mem _ hw)
    obtain ⟨hw, hk, h0⟩ := h _ List.mem_cons_self
    have hq : quotedInt x k' (inner src i e) = quotedInt x k (inner src i e) ∨ quotedInt x k (inner src i e) = some none := by
      rcases hk with rfl | hk
      · exact .inl rfl
      · exact quoted_rl hf hk
    simp only [mapV, Doc.slice_inner hw, Option.bind_some, KeyTy.key]
    rcases hq with hq | hq
    · rw [hq]
      cases quotedInt x k (inner src i e) with
      | none => exact .inl rfl
      | some r => cases r with
        | none => exact .inl rfl
        | some w =>
          simp only
          rcases h0 (if fresh then z else (lookupV (.int w) m).getD z) with h1 | ⟨i, e, a, h1, h2⟩
          · rw [h1]
            cases f v _ with
            | ok a => exact ih _
            | _ => exact .inl rfl
          · rw [h1]
            exact .inr ⟨i, e, _, rfl, h2⟩
    · rw [hq]
      exact .inr ⟨_, _, _, rfl, .inr ⟨rfl, rfl⟩⟩

theorem literalsW_get {x : Ext} {src : Bytes} {o : Options} : ∀ {fs : WFields} {j : Nat} {f : Bytes × Nat × Nat × WTy}, fs[j]? = some f → (literalsW x src o fs)[j]? = some (f.2.2.2.Literals x src o)
  | (n, a, b, e) :: fs, 0, f, h => by cases h; rfl
  | (n, a, b, e) :: fs, j + 1, f, h => by simp only [literalsW, List.getElem?_cons_succ]; exact literalsW_get (by simpa using h)

/-- The members of an object. -/
theorem struct_rl {x : Ext} {src : Bytes} {o : Options} {E : Err → Prop} {fs : WFields}
    (ih : ∀ f ∈ fs, ∀ v V, Wf src v → f.2.2.2.Literals x src o v → RW E (decPV x src (some o) f.2.2.2.old v V) (decPV x src (some o) f.2.2.2.new v V)) :
    ∀ {ms : List ((Nat × Nat) × JVal)} {Vs : List Val}, WfM src ms → (∀ m ∈ ms, ∀ j L, KeySelects x src o (fs.map (·.1)) m.1 j → (literalsW x src o fs)[j]? = some L → L m.2) →
    RW E (structV x src o (decPVF x src (some o) (oldW fs)) ms Vs) (structV x src o (decPVF x src (some o) (newW fs)) ms Vs)
  | [], Vs, _, _ => .inl rfl
  | ((i, e), v) :: ms, Vs, hw, hl => by
    have ihm := fun {Vs : List Val} => struct_rl ih (ms := ms) (Vs := Vs) hw.2.2 fun m hm => hl m (List.mem_cons_of_mem _ hm)
    obtain ⟨name, h1, h2, -⟩ := key_fun x o (fs.map (·.1)) (k := (i, e)) hw.1
    simp only [structV, Evolve.decPVF_names, oldW_names, newW_names, h1]
    cases hj : findField x o (fs.map (·.1)).zipIdx name with
    | none =>
      simp only
      split
      · exact .inl rfl
      · split
        · exact .inl rfl
        · exact ihm
    | some j =>
      have hlt : j < fs.length := by have := sel_lt (selects_iff.1 hj); simpa using this
      have hf : fs[j]? = some fs[j] := List.getElem?_eq_getElem hlt
      have hL := hl _ List.mem_cons_self j _ ((h2 j).2 hj) (literalsW_get hf)
      simp only [decW_get (oldW_get hf), decW_get (newW_get hf)]
      cases Vs[j]? with
      | none => exact .inl rfl
      | some V =>
        simp only
        rcases ih _ (List.getElem_mem hlt) v V hw.2.1 hL with h1 | ⟨i, e, a, h1, h2⟩
        · rw [h1]
          cases decPV x src (some o) _ v V with
          | ok a => exact ihm
          | _ => exact .inl rfl
        · rw [h1]
          exact .inr ⟨i, e, _, rfl, h2⟩

mutual
/-- The readings of both types, of a document whose literals are taken for what they are. -/
theorem dec_l {x : Ext} {src : Bytes} {o : Options} : ∀ (e : WTy) (v : JVal) (V : Val), e.Ok (Wider x.is64) (Wider x.is64) → Wf src v → e.Literals x src o v →
    RW (Avoids true) (decPV x src (some o) e.old v V) (decPV x src (some o) e.new v V)
  | .same t, v, V, _, _, _ => .inl rfl
  | .int k k', v, V, ho, hw, hL => scalar_rl (o := o) ho hw hL V
  | .quoted k k', v, V, ho, hw, hL => quotedV_rl ho hw hL V
  | .ints k k', v, V, ho, hw, hL => by
    cases v with
    | arr i vs z => exact sliceOf_rw fun v hv W => elem_rl ho (wfL_mem hw.2.2.2.2 v hv) (fun i e h => hL i e (h ▸ hv)) W
    | num b i e => exact .inl (by cases b <;> simp only [WTy.old, WTy.new, decPV, decV, leafV, leaf, Doc.slice_text hw.1 hw.2.1] <;> rfl)
    | str i e => exact .inl (by simp only [WTy.old, WTy.new, decPV, decV, leafV, leaf, Doc.slice_inner hw]; rfl)
    | _ => exact .inl rfl
  | .array n e, v, V, ho, hw, hL => by
    have hl : leafV x src (WTy.array n e).new v V = leafV x src (WTy.array n e).old v V := leaf_w (e := .array n e) rfl v V
    cases v with
    | arr i vs z =>
      cases V with
      | arr Vs => exact (elems_rw fun v hv W => dec_l e v W ho (wfL_mem hw.2.2.2.2 v hv) (hL v hv)).map _
      | _ => exact .inl hl
    | _ => exact .inl hl
  | .slice e, v, V, ho, hw, hL => by
    have hl : leafV x src (WTy.slice e).new v V = leafV x src (WTy.slice e).old v V := leaf_w (e := .slice e) rfl v V
    cases v with
    | arr i vs z =>
      show RW _ (sliceV _ _ _ vs V) (sliceV _ _ _ vs V)
      rw [zero_eq, comp_w]
      exact slice_rw fun v hv W => dec_l e v W ho (wfL_mem hw.2.2.2.2 v hv) (hL v hv)
    | _ => exact .inl hl
  | .map k e, v, V, ho, hw, hL => by
    have hl : leafV x src (WTy.map k e).new v V = leafV x src (WTy.map k e).old v V := leaf_w (e := .map k e) rfl v V
    cases v with
    | obj i ms z =>
      simp only [WTy.old, WTy.new, decPV, zero_eq, fresh_w]
      split
      · exact .inl rfl
      · exact (map_rw fun a ha W => dec_l e a.2 W ho (wfM_mem hw.2.2.2.2 a ha).2 (hL a ha)).map _
    | _ => exact .inl hl
  | .keys k k' e, v, V, ho, hw, hL => by
    have hl : leafV x src (WTy.keys k k' e).new v V = leafV x src (WTy.keys k k' e).old v V := leaf_w (e := .keys k k' e) rfl v V
    cases v with
    | obj i ms z =>
      simp only [WTy.old, WTy.new, decPV, zero_eq, fresh_w]
      rw [if_neg (fun hc => by cases hc.1), if_neg (fun hc => by cases hc.1)]
      exact (keys_rl ho.1 fun a ha => ⟨(wfM_mem hw.2.2.2.2 a ha).1, (hL a ha).1, fun W => dec_l e a.2 W ho.2 (wfM_mem hw.2.2.2.2 a ha).2 (hL a ha).2⟩).map _
    | _ => exact .inl hl
  | .ptr e, v, V, ho, hw, hL => by
    have key := (dec_l (o := o) e v (zeroV x e.old) ho hw hL).map Val.ptr
    cases v with
    | null => exact .inl rfl
    | _ => simp only [WTy.old, WTy.new, decPV, zero_eq]; exact key
  | .struct n n' fs, v, V, ho, hw, hL => by
    have hl : leafV x src (WTy.struct n n' fs).new v V = leafV x src (WTy.struct n n' fs).old v V := leaf_w (e := .struct n n' fs) rfl v V
    cases v with
    | obj i ms z =>
      cases V with
      | struct Vs =>
        simp only [WTy.old, WTy.new, decPV]
        split
        · exact .inl rfl
        · exact (struct_rl (dec_lW fs ho.2) hw.2.2.2.2 hL).map _
      | _ => exact .inl hl
    | _ => exact .inl hl
theorem dec_lW {x : Ext} {src : Bytes} {o : Options} : ∀ (fs : WFields), OkW (Wider x.is64) (Wider x.is64) fs → ∀ f ∈ fs, ∀ v V, Wf src v → f.2.2.2.Literals x src o v →
    RW (Avoids true) (decPV x src (some o) f.2.2.2.old v V) (decPV x src (some o) f.2.2.2.new v V)
  | (n, a, b, e) :: fs, ho, f, hf, v, V, hw, hL => by
    rcases List.mem_cons.1 hf with rfl | hf
    · exact dec_l e v V ho.1 hw hL
    · exact dec_lW fs ho.2 f hf v V hw hL
end

end Verif.Proof.Widen

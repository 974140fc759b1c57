import Verif.Spec.Shuffle
import Verif.Proof.Evolve
/-!
# Fields in another order: the readings of both types
-/
namespace Verif.Proof.Shuffle
open Verif.Model Verif.Big Verif.Spec Verif.Proof Verif.Proof.Outcome Verif.Proof.Comp Verif.Proof.Safe Verif.Proof.Evolve

abbrev FFields := List (Bytes × Nat × Nat × FTy)

/-! ## Picking -/

theorem pick_get {α : Type} {l : List α} : ∀ {order : List Nat} {k : Nat}, (∀ j ∈ order, j < l.length) → (pick order l)[k]? = (order[k]?).bind fun j => l[j]?
  | [], k, _ => by simp [pick]
  | j :: order, 0, h => by
    have := h j List.mem_cons_self
    simp [pick, List.getElem?_eq_getElem this]
  | j :: order, k + 1, h => by
    have h1 := h j List.mem_cons_self
    have h2 := pick_get (order := order) (k := k) (l := l) fun j hj => h j (List.mem_cons_of_mem _ hj)
    simp only [pick] at h2
    simp only [pick, List.filterMap_cons, List.getElem?_eq_getElem h1, List.getElem?_cons_succ]
    exact h2

theorem pick_map {α β : Type} (f : α → β) (l : List α) : ∀ order : List Nat, (pick order l).map f = pick order (l.map f)
  | [] => rfl
  | j :: order => by
    have ih := pick_map f l order
    simp only [pick, List.getElem?_map] at ih
    simp only [pick, List.filterMap_cons, List.getElem?_map]
    cases l[j]? with
    | none => simp only [Option.map_none]; exact ih
    | some a => simp only [List.map_cons, Option.map_some, ih]

theorem perm_lt {order : List Nat} {n : Nat} (h : order.Perm (List.range n)) : ∀ j ∈ order, j < n := fun j hj => List.mem_range.1 (h.mem_iff.1 hj)

theorem perm_ex {order : List Nat} {n : Nat} (h : order.Perm (List.range n)) {j : Nat} (hj : j < n) : ∃ k : Nat, order[k]? = some j := List.mem_iff_getElem?.1 (h.mem_iff.2 (List.mem_range.2 hj))

theorem perm_inj {order : List Nat} {n : Nat} (h : order.Perm (List.range n)) {k k' j : Nat} (h1 : order[k]? = some j) (h2 : order[k']? = some j) : k = k' := by
  have hn : order.Nodup := h.nodup_iff.2 List.nodup_range
  exact (List.getElem?_inj (List.getElem?_eq_some_iff.1 h1).1 hn).1 (h1.trans h2.symm)

/-! ## Selecting -/

theorem first_get {P : Bytes → Prop} : ∀ {names : List Bytes} {i k : Nat}, FirstField P (names.zipIdx i) (i + k) → ∃ a, names[k]? = some a ∧ P a
  | [], _, _, h => by cases h
  | n :: names, i, k, h => by
    rw [List.zipIdx_cons] at h
    generalize hk : i + k = m at h
    cases h with
    | here hp =>
      have : k = 0 := by omega
      subst this
      exact ⟨n, rfl, hp⟩
    | there _ h =>
      have := first_le h
      obtain ⟨k', rfl⟩ : ∃ k', k = k' + 1 := ⟨k - 1, by omega⟩
      obtain ⟨a, h1, h2⟩ := first_get (i := i + 1) (k := k') (by rw [show i + 1 + k' = m by omega]; exact h)
      exact ⟨a, by simpa using h1, h2⟩

theorem first_get0 {P : Bytes → Prop} {names : List Bytes} {k : Nat} (h : FirstField P names.zipIdx k) : ∃ a, names[k]? = some a ∧ P a := first_get (i := 0) (by rw [Nat.zero_add]; exact h)

theorem first_of {P : Bytes → Prop} {names : List Bytes} {k : Nat} {a : Bytes} (h : names[k]? = some a) (hp : P a) (hu : ∀ i b, names[i]? = some b → P b → i = k) : FirstField P names.zipIdx k := by
  obtain ⟨k', hk⟩ := first_ex 0 ⟨a, List.mem_of_getElem? h, hp⟩
  obtain ⟨b, h1, h2⟩ := first_get0 hk
  cases hu _ _ h1 h2
  exact hk

/-- What it takes to be selected, if the names are apart. -/
def Hit (x : Ext) (o : Options) (names : List Bytes) (name a : Bytes) : Prop :=
  a = name ∨ (o.disableCaseInsensitiveMatching = false ∧ (∀ n ∈ names, n ≠ name) ∧ a.length = name.length ∧ x.equalFold a name = true)

theorem sel_iff {x : Ext} {o : Options} {names : List Bytes} (hA : Apart x names) {name : Bytes} {j : Nat} : SelectsField x o names name j ↔ ∃ a, names[j]? = some a ∧ Hit x o names name a := by
  have u1 : ∀ {j : Nat} {a : Bytes}, names[j]? = some a → a = name → ∀ i b, names[i]? = some b → b = name → i = j := by
    intro j a h1 h2 i b h3 h4
    exact Decidable.byContradiction fun hne => (hA i j b a h3 h1 hne).1 (h4.trans h2.symm)
  have u2 : ∀ {j : Nat} {a : Bytes}, names[j]? = some a → (a.length = name.length ∧ x.equalFold a name = true) → ∀ i b, names[i]? = some b → (b.length = name.length ∧ x.equalFold b name = true) → i = j := by
    intro j a h1 h2 i b h3 h4
    exact Decidable.byContradiction fun hne => (hA i j b a h3 h1 hne).2 name ⟨h4, h2⟩
  constructor
  · intro h
    unfold SelectsField at h
    split at h
    · obtain ⟨a, h1, h2⟩ := first_get0 h
      exact ⟨a, h1, .inl h2⟩
    · rename_i ho
      cases h with
      | exact h => obtain ⟨a, h1, h2⟩ := first_get0 h; exact ⟨a, h1, .inl h2⟩
      | folded h0 h => obtain ⟨a, h1, h2⟩ := first_get0 h; exact ⟨a, h1, .inr ⟨by simpa using ho, noField_iff.1 h0, h2⟩⟩
  · rintro ⟨a, h1, h2 | ⟨ho, h0, h2⟩⟩
    · have := first_of (P := (· = name)) h1 h2 (u1 h1 h2)
      unfold SelectsField
      split
      · exact this
      · exact .exact this
    · unfold SelectsField
      rw [if_neg (by simp [ho])]
      exact .folded (noField_iff.2 h0) (first_of h1 h2 (u2 h1 h2))

theorem pick_mem {α : Type} {l : List α} {order : List Nat} (h : order.Perm (List.range l.length)) (a : α) : a ∈ pick order l ↔ a ∈ l := by
  constructor
  · intro ha
    obtain ⟨k, hk⟩ := List.mem_iff_getElem?.1 ha
    rw [pick_get (perm_lt h)] at hk
    obtain ⟨j, -, hj⟩ := Option.bind_eq_some_iff.1 hk
    exact List.mem_of_getElem? hj
  · intro ha
    obtain ⟨j, hj⟩ := List.mem_iff_getElem?.1 ha
    obtain ⟨k, hk⟩ := perm_ex h (List.getElem?_eq_some_iff.1 hj).1
    exact List.mem_of_getElem? (i := k) (by rw [pick_get (perm_lt h), hk]; exact hj)

theorem apart_pick {x : Ext} {names : List Bytes} {order : List Nat} (h : order.Perm (List.range names.length)) (hA : Apart x names) : Apart x (pick order names) := by
  intro i j a b hi hj hne
  rw [pick_get (perm_lt h)] at hi hj
  obtain ⟨i', h1, h2⟩ := Option.bind_eq_some_iff.1 hi
  obtain ⟨j', h3, h4⟩ := Option.bind_eq_some_iff.1 hj
  exact hA i' j' a b h2 h4 fun he => hne (perm_inj h h1 (he ▸ h3))

theorem sel_pick {x : Ext} {o : Options} {names : List Bytes} {order : List Nat} (h : order.Perm (List.range names.length)) (hA : Apart x names) {name : Bytes} {k : Nat} :
    SelectsField x o (pick order names) name k ↔ ∃ j, order[k]? = some j ∧ SelectsField x o names name j := by
  have hH : ∀ a, Hit x o (pick order names) name a ↔ Hit x o names name a := by
    intro a
    simp only [Hit, pick_mem h]
  rw [sel_iff (apart_pick h hA)]
  simp only [pick_get (perm_lt h), hH, sel_iff hA]
  constructor
  · rintro ⟨a, h1, h2⟩
    obtain ⟨j, h3, h4⟩ := Option.bind_eq_some_iff.1 h1
    exact ⟨j, h3, a, h4, h2⟩
  · rintro ⟨j, h3, a, h4, h2⟩
    exact ⟨a, by rw [h3]; exact h4, h2⟩

/-- The field found by both types, or by neither. -/
theorem find_pick {x : Ext} {o : Options} {names : List Bytes} {order : List Nat} (h : order.Perm (List.range names.length)) (hA : Apart x names) (name : Bytes) :
    (findField x o names.zipIdx name = none ∧ findField x o (pick order names).zipIdx name = none) ∨
    ∃ k j, order[k]? = some j ∧ findField x o names.zipIdx name = some j ∧ findField x o (pick order names).zipIdx name = some k := by
  cases hj : findField x o names.zipIdx name with
  | none =>
    refine .inl ⟨rfl, unknown_iff.2 fun k hk => ?_⟩
    obtain ⟨j, -, h2⟩ := (sel_pick h hA).1 hk
    exact unknown_iff.1 hj j h2
  | some j =>
    have hs := selects_iff.1 hj
    obtain ⟨k, hk⟩ := perm_ex h (sel_lt hs)
    exact .inr ⟨k, j, hk, rfl, selects_iff.2 ((sel_pick h hA).2 ⟨j, hk, hs⟩)⟩

/-! ## Fields -/

theorem oldG_names : ∀ fs : FFields, (oldG fs).map (·.1) = fs.map (·.1)
  | [] => rfl
  | (n, _, _, e) :: fs => by simp only [oldG, List.map_cons, oldG_names fs]

theorem newG_names : ∀ fs : FFields, (newG fs).map (·.1) = fs.map (·.1)
  | [] => rfl
  | (n, _, _, e) :: fs => by simp only [newG, List.map_cons, newG_names fs]

theorem newG_length : ∀ fs : FFields, (newG fs).length = fs.length
  | [] => rfl
  | (n, _, _, e) :: fs => by simp only [newG, List.length_cons, newG_length fs]

theorem oldG_get : ∀ {fs : FFields} {j : Nat} {f : Bytes × Nat × Nat × FTy}, fs[j]? = some f → (oldG fs)[j]? = some (f.1, f.2.1, f.2.2.2.old)
  | (n, a, b, e) :: fs, 0, f, h => by cases h; rfl
  | (n, a, b, e) :: fs, j + 1, f, h => by simp only [oldG, List.getElem?_cons_succ]; exact oldG_get (by simpa using h)

theorem newG_get : ∀ {fs : FFields} {j : Nat} {f : Bytes × Nat × Nat × FTy}, fs[j]? = some f → (newG fs)[j]? = some (f.1, f.2.2.1, f.2.2.2.new)
  | (n, a, b, e) :: fs, 0, f, h => by cases h; rfl
  | (n, a, b, e) :: fs, j + 1, f, h => by simp only [newG, List.getElem?_cons_succ]; exact newG_get (by simpa using h)

theorem movedG_get : ∀ {fs : FFields} {j : Nat} {f : Bytes × Nat × Nat × FTy}, fs[j]? = some f → (MovedG fs)[j]? = some (Moved f.2.2.2)
  | (n, a, b, e) :: fs, 0, f, h => by cases h; rfl
  | (n, a, b, e) :: fs, j + 1, f, h => by simp only [MovedG, List.getElem?_cons_succ]; exact movedG_get (by simpa using h)

theorem decG_get {x : Ext} {src : Bytes} {o : Option Options} : ∀ {fs : List (Bytes × Nat × Ty)} {j : Nat} {f : Bytes × Nat × Ty}, fs[j]? = some f → (decPVF x src o fs)[j]? = some (f.1, decPV x src o f.2.2)
  | (n, a, e) :: fs, 0, f, h => by cases h; rfl
  | (n, a, e) :: fs, j + 1, f, h => by simp only [decPVF, List.getElem?_cons_succ]; exact decG_get (by simpa using h)

theorem rightG_get {x : Ext} {src : Bytes} {o : Option Options} : ∀ {fs : List (Bytes × Nat × Ty)} {j : Nat} {f : Bytes × Nat × Ty}, fs[j]? = some f → (RightF x src o fs)[j]? = some (Right x src o f.2.2)
  | (n, a, e) :: fs, 0, f, h => by cases h; rfl
  | (n, a, e) :: fs, j + 1, f, h => by simp only [RightF, List.getElem?_cons_succ]; exact rightG_get (by simpa using h)

theorem zeroG_get {x : Ext} : ∀ {fs : List (Bytes × Nat × Ty)} {j : Nat} {f : Bytes × Nat × Ty}, fs[j]? = some f → (zeroF x fs)[j]? = some (zeroV x f.2.2)
  | (n, a, e) :: fs, 0, f, h => by cases h; rfl
  | (n, a, e) :: fs, j + 1, f, h => by simp only [zeroF, List.getElem?_cons_succ]; exact zeroG_get (by simpa using h)

theorem zeroF_length {x : Ext} : ∀ fs : List (Bytes × Nat × Ty), (zeroF x fs).length = fs.length
  | [] => rfl
  | (n, a, e) :: fs => by simp only [zeroF, List.length_cons, zeroF_length fs]

theorem pick_length {α : Type} {l : List α} {order : List Nat} (h : order.Perm (List.range l.length)) : (pick order l).length = l.length := by
  have h0 : ∀ order : List Nat, (∀ j ∈ order, j < l.length) → (pick order l).length = order.length := by
    intro order
    induction order with
    | nil => intro _; rfl
    | cons j order ih =>
      intro h
      have h1 := h j List.mem_cons_self
      have := ih fun j hj => h j (List.mem_cons_of_mem _ hj)
      simp only [pick] at this
      simp only [pick, List.filterMap_cons, List.getElem?_eq_getElem h1, List.length_cons, this]
  rw [h0 order (perm_lt h), h.length_eq, List.length_range]

/-- The relation for the fields of a struct. -/
def MovedFs (fs : FFields) (order : List Nat) (Vs Ws : List Val) : Prop :=
  Vs.length = fs.length ∧ Ws.length = fs.length ∧ ∀ (k j : Nat), order[k]? = some j → ∀ P, (MovedG fs)[j]? = some P → ∀ A B, Vs[j]? = some A → Ws[k]? = some B → P A B

theorem moved_get {fs : FFields} {order : List Nat} (hp : order.Perm (List.range fs.length)) {Vs Ws : List Val} (h : MovedFs fs order Vs Ws) {k j : Nat} (hk : order[k]? = some j) {f : Bytes × Nat × Nat × FTy} (hf : fs[j]? = some f) :
    ∃ V W, Vs[j]? = some V ∧ Ws[k]? = some W ∧ Moved f.2.2.2 V W ∧ ∀ V' W', Moved f.2.2.2 V' W' → MovedFs fs order (Vs.set j V') (Ws.set k W') := by
  obtain ⟨h1, h2, h3⟩ := h
  have hj : j < Vs.length := h1 ▸ (List.getElem?_eq_some_iff.1 hf).1
  have hkl : k < Ws.length := by
    have := (List.getElem?_eq_some_iff.1 hk).1
    rw [hp.length_eq, List.length_range] at this
    omega
  refine ⟨Vs[j], Ws[k], List.getElem?_eq_getElem hj, List.getElem?_eq_getElem hkl, h3 k j hk _ (movedG_get hf) _ _ (List.getElem?_eq_getElem hj) (List.getElem?_eq_getElem hkl), fun V' W' hm => ⟨by simpa using h1, by simpa using h2, ?_⟩⟩
  intro k' j' hk' P hP A B hA hB
  by_cases hjj : j' = j
  · subst hjj
    cases perm_inj hp hk' hk
    rw [List.getElem?_set_self hj] at hA
    rw [List.getElem?_set_self hkl] at hB
    cases hA; cases hB
    rw [movedG_get hf] at hP
    cases hP
    exact hm
  · have hkk : k' ≠ k := by
      rintro rfl
      rw [hk] at hk'
      cases hk'
      exact hjj rfl
    rw [List.getElem?_set_ne (Ne.symm hjj)] at hA
    rw [List.getElem?_set_ne (Ne.symm hkk)] at hB
    exact h3 k' j' hk' P hP A B hA hB

/-- The members of an object. -/
theorem struct_rr {x : Ext} {src : Bytes} {o : Options} {fs : FFields} {order : List Nat} (hp : order.Perm (List.range fs.length)) (hA : Apart x (fs.map (·.1)))
    (ih : ∀ f ∈ fs, ∀ v V W, Wf src v → Moved f.2.2.2 V W → RR (Moved f.2.2.2) (decPV x src (some o) f.2.2.2.old v V) (decPV x src (some o) f.2.2.2.new v W)) :
    ∀ {ms : List ((Nat × Nat) × JVal)} {Vs Ws : List Val}, WfM src ms → MovedFs fs order Vs Ws →
    RR (MovedFs fs order) (structV x src o (decPVF x src (some o) (oldG fs)) ms Vs) (structV x src o (decPVF x src (some o) (pick order (newG fs))) ms Ws)
  | [], Vs, Ws, _, h => .ok h
  | ((i, e), v) :: ms, Vs, Ws, hw, h => by
    have ihm := fun {Vs Ws : List Val} => struct_rr hp hA ih (ms := ms) (Vs := Vs) (Ws := Ws) hw.2.2
    obtain ⟨name, hname, -, -⟩ := key_fun x o (fs.map (·.1)) hw.1
    simp only at hname
    simp only [structV, hname, Evolve.decPVF_names, oldG_names, pick_map, newG_names]
    rcases find_pick (order := order) (o := o) (by rw [List.length_map]; exact hp) hA name with ⟨h1, h2⟩ | ⟨k, j, hk, h1, h2⟩
    · rw [h1, h2]
      simp only []
      split
      · exact .err h
      · split
        · exact .unsup
        · exact ihm h
    · have hlt : j < fs.length := perm_lt hp j (List.mem_of_getElem? hk)
      have hf : fs[j]? = some fs[j] := List.getElem?_eq_getElem hlt
      obtain ⟨V, W, g1, g2, g3, g4⟩ := moved_get hp h hk hf
      have hn : (pick order (newG fs))[k]? = some (fs[j].1, fs[j].2.2.1, fs[j].2.2.2.new) := by
        rw [pick_get (by rw [newG_length]; exact perm_lt hp), hk]
        exact newG_get hf
      simp only [h1, h2, decG_get (oldG_get hf), decG_get hn, g1, g2]
      have hr := ih _ (List.getElem_mem hlt) v V W hw.2.1 g3
      revert hr
      generalize decPV x src (some o) _ v V = r
      generalize decPV x src (some o) _ v W = s
      intro hr
      cases hr with
      | ok hp => exact ihm (g4 _ _ hp)
      | err hp => exact .err (g4 _ _ hp)
      | crash => exact .crash
      | unsup => exact .unsup

/-! ## Types -/

theorem etype_eq (e : FTy) : e.old.etype = e.new.etype := by cases e <;> rfl

mutual
theorem zero_moved {x : Ext} : ∀ e : FTy, e.Ok x → Moved e (zeroV x e.old) (zeroV x e.new)
  | .same t, _ => rfl
  | .array n e, h => ⟨_, _, rfl, rfl, by simp, pairs_replicate (zero_moved e h) n⟩
  | .slice e, _ => .inl ⟨rfl, rfl⟩
  | .map k e, _ => .inl ⟨rfl, rfl⟩
  | .ptr e, _ => .inl ⟨rfl, rfl⟩
  | .struct n n' fs order, h => by
    obtain ⟨hp, -, -, ho⟩ := h
    have hl : (newG fs).length = fs.length := newG_length fs
    have hlo : (oldG fs).length = fs.length := by rw [← List.length_map (f := (·.1)), oldG_names, List.length_map]
    refine ⟨_, _, rfl, rfl, by rw [zeroF_length, hlo], by rw [zeroF_length, pick_length (by rw [hl]; exact hp), hl], fun k j hk P hP A B hA hB => ?_⟩
    have hlt : j < fs.length := perm_lt hp j (List.mem_of_getElem? hk)
    have hf : fs[j]? = some fs[j] := List.getElem?_eq_getElem hlt
    have hn : (pick order (newG fs))[k]? = some (fs[j].1, fs[j].2.2.1, fs[j].2.2.2.new) := by
      rw [pick_get (by rw [newG_length]; exact perm_lt hp), hk]
      exact newG_get hf
    rw [zeroG_get (oldG_get hf)] at hA
    rw [zeroG_get hn] at hB
    rw [movedG_get hf] at hP
    cases hA; cases hB; cases hP
    exact zero_movedG fs ho _ (List.getElem_mem hlt)
theorem zero_movedG {x : Ext} : ∀ fs : FFields, OkG x fs → ∀ f ∈ fs, Moved f.2.2.2 (zeroV x f.2.2.2.old) (zeroV x f.2.2.2.new)
  | (n, a, b, e) :: fs, ho, f, hf => by
    rcases List.mem_cons.1 hf with rfl | hf
    · exact zero_moved e ho.1
    · exact zero_movedG fs ho.2 f hf
end

theorem leaf_rr {x : Ext} {src : Bytes} {e : FTy} (hok : e.Ok x) {t t' : Ty} (ht : t = e.old) (ht' : t' = e.new) (he : t.etype = .array ∨ t.etype = .slice ∨ t.etype = .map ∨ t.etype = .struct) (v : JVal) {V W : Val}
    (h : Moved e V W) : RR (Moved e) (leafV x src t v V) (leafV x src t' v W) := by
  have hee : t'.etype = t.etype := by rw [ht, ht']; exact (etype_eq e).symm
  simp only [leafV, hee]
  rcases leaf_comp (x := x) (src := src) he v with ⟨n, h1⟩ | h1 | ⟨er, h1⟩ | h1 <;> rw [h1] <;> simp only [actV]
  · rw [ht, ht']; exact .ok (zero_moved e hok)
  · exact .ok h
  · exact .err h
  · exact .crash

mutual
/-- The readings of both types. -/
theorem dec_sh {x : Ext} {src : Bytes} {o : Options} : ∀ (e : FTy) (v : JVal) (V W : Val), e.Ok x → Wf src v → Moved e V W → RR (Moved e) (decPV x src (some o) e.old v V) (decPV x src (some o) e.new v W)
  | .same t, v, V, W, _, _, h => by cases h; exact RR.refl _
  | .array n e, v, V, W, ho, hw, h => by
    cases v with
    | arr i vs z =>
      obtain ⟨Vs, Ws, rfl, rfl, hn, hp⟩ := h
      exact (elems_rr (fun v hv V W hs => dec_sh e v V W ho (wfL_mem hw.2.2.2.2 v (List.mem_of_mem_take hv)) hs) hp).map fun a b hab => ⟨a, b, rfl, rfl, hab.1.trans hn, hab.2⟩
    | _ => exact leaf_rr (e := .array n e) ho rfl rfl (.inl rfl) _ h
  | .slice e, v, V, W, ho, hw, h => by
    cases v with
    | arr i vs z =>
      show RR (Moved (.slice e)) (sliceV _ _ _ vs V) (sliceV _ _ _ vs W)
      rw [← etype_eq e]
      exact slice_rr (zero_moved e ho) (fun v hv V W hs => dec_sh e v V W ho (wfL_mem hw.2.2.2.2 v hv) hs) h
    | _ => exact leaf_rr (e := .slice e) ho rfl rfl (.inr (.inl rfl)) _ h
  | .map k e, v, V, W, ho, hw, h => by
    cases v with
    | obj i ms z =>
      have hp : AllPairs (fun a b : Key × Val => a.1 = b.1 ∧ Moved e a.2 b.2) (mapParts V) (mapParts W) := by
        rcases h with ⟨rfl, rfl⟩ | ⟨Vs, Ws, rfl, rfl, h⟩
        · exact trivial
        · exact h
      simp only [FTy.old, FTy.new, decPV, ← etype_eq e]
      split
      · exact .unsup
      · exact (map_rr (zero_moved e ho) (fun a ha V W hs => dec_sh e a.2 V W ho (wfM_mem hw.2.2.2.2 a ha).2 hs) hp).map fun a b hab => .inr ⟨a, b, rfl, rfl, hab⟩
    | _ => exact leaf_rr (e := .map k e) ho rfl rfl (.inr (.inr (.inl rfl))) _ h
  | .ptr e, v, V, W, ho, hw, h => by
    have key := (dec_sh (o := o) e v _ _ ho hw (zero_moved (x := x) e ho)).map (Q := Moved (.ptr e)) (f := .ptr) (g := .ptr) fun a b hab => .inr ⟨a, b, rfl, rfl, hab⟩
    cases v with
    | null => exact .ok (.inl ⟨rfl, rfl⟩)
    | _ => exact key
  | .struct n n' fs order, v, V, W, ho, hw, h => by
    cases v with
    | obj i ms z =>
      obtain ⟨Vs, Ws, rfl, rfl, h⟩ := h
      simp only [FTy.old, FTy.new, decPV]
      split
      · exact .ok ⟨_, _, rfl, rfl, h⟩
      · exact (struct_rr ho.1 ho.2.1 (dec_shG fs ho.2.2.2) hw.2.2.2.2 h).map fun a b hab => ⟨a, b, rfl, rfl, hab⟩
    | _ => exact leaf_rr (e := .struct n n' fs order) ho rfl rfl (.inr (.inr (.inr rfl))) _ h
theorem dec_shG {x : Ext} {src : Bytes} {o : Options} : ∀ (fs : FFields), OkG x fs → ∀ f ∈ fs, ∀ v V W, Wf src v → Moved f.2.2.2 V W →
    RR (Moved f.2.2.2) (decPV x src (some o) f.2.2.2.old v V) (decPV x src (some o) f.2.2.2.new v W)
  | (n, a, b, e) :: fs, ho, f, hf, v, V, W, hw, h => by
    rcases List.mem_cons.1 hf with rfl | hf
    · exact dec_sh e v V W ho.1 hw h
    · exact dec_shG fs ho.2 f hf v V W hw h
end

theorem size_sh {x : Ext} : ∀ e : FTy, e.Ok x → (e.old.size x = 0 ↔ e.new.size x = 0)
  | .same t, _ => Iff.rfl
  | .array n e, h => by
    have := size_sh e h
    simp only [FTy.old, FTy.new, Ty.size, Nat.mul_eq_zero, this]
  | .slice e, _ => Iff.rfl
  | .map k e, _ => Iff.rfl
  | .ptr e, _ => Iff.rfl
  | .struct n n' fs order, h => h.2.2.1

mutual
/-- The other type reaches no other spots. -/
theorem right_sh {x : Ext} {src : Bytes} {o : Options} : ∀ (e : FTy) (p : Place) (v : JVal), e.Ok x → Right x src (some o) e.old p v → Right x src (some o) e.new p v
  | .same t, p, v, _, h => h
  | .array n e, p, v, ho, h => by
    cases v with
    | arr i vs z =>
      simp only [FTy.old, FTy.new, Right] at h ⊢
      split at h
      · rename_i hl
        rw [if_pos hl]
        exact butLast_imp (fun w _ hr => right_sh e .inside w ho hr) (fun w _ hr => right_sh e .last w ho hr) h
      · rename_i hl
        rw [if_neg hl]
        exact fun w hwm => right_sh e .inside w ho (h w hwm)
    | _ => trivial
  | .slice e, p, v, ho, h => by
    cases v with
    | arr i vs z => exact butLast_imp (fun w _ hr => right_sh e .inside w ho hr) (fun w _ hr => right_sh e .last w ho hr) h
    | _ => trivial
  | .map k e, p, v, ho, h => by
    cases v with
    | obj i ms z => exact ⟨h.1, butLast_imp (fun m _ hr => right_sh e .inside m.2 ho hr) (fun m _ hr => right_sh e p m.2 ho hr) h.2⟩
    | _ => trivial
  | .ptr e, p, v, ho, h => by
    have hs := size_sh (x := x) e ho
    have ih := fun p => right_sh (src := src) (o := o) e p v ho
    cases v with
    | null => trivial
    | _ =>
      refine ⟨fun h0 => h.1 (hs.2 h0), ?_⟩
      cases p with
      | inside => exact h.2
      | last => exact ih _ h.2
      | final => exact ih _ h.2
  | .struct n n' fs order, p, v, ho, h => by
    cases v with
    | obj i ms z =>
      intro o' ho'
      have h0 := h o' ho'
      cases ho'
      obtain ⟨hp, hA, -, hG⟩ := ho
      have key : ∀ p, ∀ m ∈ ms, RightM x src o ((oldG fs).map (·.1)) (RightF x src (some o) (oldG fs)) p m → RightM x src o ((pick order (newG fs)).map (·.1)) (RightF x src (some o) (pick order (newG fs))) p m := by
        intro p m hm h0 raw name hraw hkn
        have h0 := h0 raw name hraw hkn
        rw [pick_map, newG_names]
        rw [oldG_names] at h0
        rcases find_pick (order := order) (o := o) (by rw [List.length_map]; exact hp) hA name with ⟨h1, h2⟩ | ⟨k, j, hk, h1, h2⟩
        · rw [h2]
          rw [h1] at h0
          exact h0
        · rw [h2]
          rw [h1] at h0
          intro T hT
          have hlt : j < fs.length := perm_lt hp j (List.mem_of_getElem? hk)
          have hf : fs[j]? = some fs[j] := List.getElem?_eq_getElem hlt
          have hn : (pick order (newG fs))[k]? = some (fs[j].1, fs[j].2.2.1, fs[j].2.2.2.new) := by
            rw [pick_get (by rw [newG_length]; exact perm_lt hp), hk]
            exact newG_get hf
          rw [rightG_get hn] at hT
          cases hT
          exact right_shG fs hG _ (List.getElem_mem hlt) p m.2 (h0 _ (rightG_get (oldG_get hf)))
      exact butLast_imp (key .inside) (key p) h0
    | _ => trivial
theorem right_shG {x : Ext} {src : Bytes} {o : Options} : ∀ (fs : FFields), OkG x fs → ∀ f ∈ fs, ∀ p v, Right x src (some o) f.2.2.2.old p v → Right x src (some o) f.2.2.2.new p v
  | (n, a, b, e) :: fs, ho, f, hf, p, v, h => by
    rcases List.mem_cons.1 hf with rfl | hf
    · exact right_sh e p v ho.1 h
    · exact right_shG fs ho.2 f hf p v h
end

end Verif.Proof.Shuffle

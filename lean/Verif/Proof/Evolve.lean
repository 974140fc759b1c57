import Verif.Spec.Evolve
import Verif.Proof.Comp
import Verif.Proof.Safe
import Verif.Spec.Right
/-!
# New fields: the readings of the old and of the new type

`Sees` is kept by the two readings of a document that does not mention the new fields.
-/
namespace Verif.Proof.Evolve
open Verif.Model Verif.Big Verif.Spec Verif.Proof Verif.Proof.Outcome Verif.Proof.Comp Verif.Proof.Safe

abbrev EFields := List (Bytes × Nat × Nat × Bool × ETy)

/-- Two outcomes with related values. -/
inductive RR {α β : Type} (P : α → β → Prop) : R α → R β → Prop
  | ok {a : α} {b : β} : P a b → RR P (.ok a) (.ok b)
  | err {i : Nat} {e : Err} {a : α} {b : β} : P a b → RR P (.err i e a) (.err i e b)
  | crash : RR P .crash .crash
  | unsup : RR P .unsup .unsup

theorem RR.map {α β γ δ : Type} {P : α → β → Prop} {Q : γ → δ → Prop} {r : R α} {s : R β} {f : α → γ} {g : β → δ} (h : RR P r s) (hf : ∀ a b, P a b → Q (f a) (g b)) : RR Q (r.map f) (s.map g) := by
  cases h with
  | ok h => exact .ok (hf _ _ h)
  | err h => exact .err (hf _ _ h)
  | crash => exact .crash
  | unsup => exact .unsup

theorem RR.refl {α : Type} : ∀ r : R α, RR (fun a b => a = b) r r
  | .ok _ => .ok rfl
  | .err _ _ _ => .err rfl
  | .crash => .crash
  | .unsup => .unsup

/-! ## Lists -/

theorem pairs_length {α β : Type} {P : α → β → Prop} : ∀ {l : List α} {r : List β}, AllPairs P l r → l.length = r.length
  | [], [], _ => rfl
  | _ :: _, _ :: _, h => by simp [pairs_length h.2]

theorem pairs_append {α β : Type} {P : α → β → Prop} : ∀ {l l' : List α} {r r' : List β}, AllPairs P l r → AllPairs P l' r' → AllPairs P (l ++ l') (r ++ r')
  | [], _, [], _, _, h' => h'
  | _ :: _, _, _ :: _, _, h, h' => ⟨h.1, pairs_append h.2 h'⟩

theorem pairs_take {α β : Type} {P : α → β → Prop} : ∀ {l : List α} {r : List β} (n : Nat), AllPairs P l r → AllPairs P (l.take n) (r.take n)
  | _, _, 0, _ => trivial
  | [], [], n + 1, _ => trivial
  | _ :: _, _ :: _, n + 1, h => ⟨h.1, pairs_take n h.2⟩

theorem pairs_drop {α β : Type} {P : α → β → Prop} : ∀ {l : List α} {r : List β} (n : Nat), AllPairs P l r → AllPairs P (l.drop n) (r.drop n)
  | _, _, 0, h => h
  | [], [], n + 1, _ => trivial
  | _ :: _, _ :: _, n + 1, h => pairs_drop n h.2

theorem pairs_replicate {α β : Type} {P : α → β → Prop} {a : α} {b : β} (h : P a b) : ∀ n, AllPairs P (List.replicate n a) (List.replicate n b)
  | 0 => trivial
  | n + 1 => ⟨h, pairs_replicate h n⟩

/-- Elements one by one. -/
theorem elems_rr {P : Val → Val → Prop} {f g : JVal → Val → R Val} : ∀ {vs : List JVal} {Vs Ws : List Val}, (∀ v ∈ vs.take Vs.length, ∀ V W, P V W → RR P (f v V) (g v W)) → AllPairs P Vs Ws →
    RR (fun l r => l.length = Vs.length ∧ AllPairs P l r) (elemsV f vs Vs) (elemsV g vs Ws)
  | [], Vs, Ws, _, h => by simp only [elemsV]; exact .ok ⟨rfl, h⟩
  | v :: vs, [], [], _, h => .ok ⟨rfl, trivial⟩
  | v :: vs, V :: Vs, W :: Ws, hf, h => by
    have h1 := hf v (by simp) V W h.1
    simp only [elemsV]
    revert h1
    generalize f v V = r
    generalize g v W = s
    intro h1
    cases h1 with
    | ok hp => exact (elems_rr (fun v hv => hf v (by simp [hv])) h.2).map fun a b hab => ⟨by simp [hab.1], hp, hab.2⟩
    | err hp => exact .err ⟨rfl, hp, h.2⟩
    | crash => exact .crash
    | unsup => exact .unsup

theorem parts_sees {P : Val → Val → Prop} {V W : Val} (h : (V = .nil ∧ W = .nil) ∨ ∃ Vs sp Ws sq, V = .slice Vs sp ∧ W = .slice Ws sq ∧ AllPairs P Vs Ws ∧ AllPairs P sp sq) :
    AllPairs P (sliceParts V).1 (sliceParts W).1 ∧ AllPairs P (sliceParts V).2 (sliceParts W).2 := by
  rcases h with ⟨rfl, rfl⟩ | ⟨Vs, sp, Ws, sq, rfl, rfl, h1, h2⟩
  · exact ⟨trivial, trivial⟩
  · exact ⟨h1, h2⟩

theorem slice_rr {P : Val → Val → Prop} {f g : JVal → Val → R Val} {z z' : Val} (hz : P z z') {c : Bool} {vs : List JVal} {V W : Val} (hf : ∀ v ∈ vs, ∀ V W, P V W → RR P (f v V) (g v W))
    (h : (V = .nil ∧ W = .nil) ∨ ∃ Vs sp Ws sq, V = .slice Vs sp ∧ W = .slice Ws sq ∧ AllPairs P Vs Ws ∧ AllPairs P sp sq) :
    RR (fun V W => (V = .nil ∧ W = .nil) ∨ ∃ Vs sp Ws sq, V = .slice Vs sp ∧ W = .slice Ws sq ∧ AllPairs P Vs Ws ∧ AllPairs P sp sq) (sliceV f z c vs V) (sliceV g z' c vs W) := by
  obtain ⟨h1, h2⟩ := parts_sees h
  have h12 := pairs_append h1 h2
  unfold sliceV
  split
  · exact .ok (.inr ⟨[], [], [], [], rfl, rfl, trivial, trivial⟩)
  have hp : AllPairs P (prepSlice z c vs.length V).1 (prepSlice z' c vs.length W).1 ∧ AllPairs P (prepSlice z c vs.length V).2 (prepSlice z' c vs.length W).2 := by
    simp only [prepSlice]
    rw [← pairs_length h12]
    split
    · split
      · rw [← pairs_length h1]; exact ⟨pairs_append h1 (pairs_replicate hz _), trivial⟩
      · exact ⟨pairs_replicate hz _, trivial⟩
    · exact ⟨pairs_take _ h12, pairs_drop _ h12⟩
  exact (elems_rr (fun v hv => hf v (List.mem_of_mem_take hv)) hp.1).map fun a b hab => .inr ⟨_, _, _, _, rfl, rfl, hab.2, hp.2⟩

/-! ## Maps -/

theorem lookup_rr {P : Val → Val → Prop} {K : Key} : ∀ {m m' : List (Key × Val)}, AllPairs (fun a b => a.1 = b.1 ∧ P a.2 b.2) m m' →
    (lookupV K m = none ∧ lookupV K m' = none) ∨ ∃ V W, lookupV K m = some V ∧ lookupV K m' = some W ∧ P V W
  | [], [], _ => .inl ⟨rfl, rfl⟩
  | (k, V) :: m, (k', W) :: m', h => by
    obtain ⟨⟨hk, hp⟩, h⟩ := h
    simp only at hk
    subst hk
    simp only [lookupV]
    split
    · exact .inr ⟨_, _, rfl, rfl, hp⟩
    · exact lookup_rr h

theorem assign_rr {P : Val → Val → Prop} {K : Key} {V W : Val} (hp : P V W) : ∀ {m m' : List (Key × Val)}, AllPairs (fun a b => a.1 = b.1 ∧ P a.2 b.2) m m' →
    AllPairs (fun a b => a.1 = b.1 ∧ P a.2 b.2) (assignV K V m) (assignV K W m')
  | [], [], _ => ⟨⟨rfl, hp⟩, trivial⟩
  | (k, V) :: m, (k', W) :: m', h => by
    obtain ⟨⟨hk, hq⟩, h⟩ := h
    simp only at hk
    subst hk
    simp only [assignV]
    split
    · exact ⟨⟨rfl, hp⟩, h⟩
    · exact ⟨⟨rfl, hq⟩, assign_rr hp h⟩

theorem map_rr {x : Ext} {src : Bytes} {P : Val → Val → Prop} {f g : JVal → Val → R Val} {z z' : Val} (hz : P z z') {k : KeyTy} {fresh : Bool} : ∀ {ms : List ((Nat × Nat) × JVal)} {m m' : List (Key × Val)},
    (∀ a ∈ ms, ∀ V W, P V W → RR P (f a.2 V) (g a.2 W)) → AllPairs (fun a b => a.1 = b.1 ∧ P a.2 b.2) m m' →
    RR (AllPairs (fun a b => a.1 = b.1 ∧ P a.2 b.2)) (mapV x src f k z fresh ms m) (mapV x src g k z' fresh ms m')
  | [], m, m', _, h => .ok h
  | ((i, e), v) :: ms, m, m', hf, h => by
    simp only [mapV]
    cases (Model.slice src (i + 1) (e - 1)).bind fun key => k.key x key with
    | none => exact .crash
    | some r =>
      cases r with
      | error er => exact .err h
      | ok k' =>
        simp only []
        have ho : P (if fresh then z else (lookupV k' m).getD z) (if fresh then z' else (lookupV k' m').getD z') := by
          split
          · exact hz
          · rcases lookup_rr (K := k') h with ⟨h1, h2⟩ | ⟨V, W, h1, h2, hp⟩
            · rw [h1, h2]; exact hz
            · rw [h1, h2]; exact hp
        have h1 := hf _ List.mem_cons_self _ _ ho
        revert h1
        simp only []
        generalize f v _ = r
        generalize g v _ = s
        intro h1
        cases h1 with
        | ok hp => exact map_rr hz (fun a ha => hf a (List.mem_cons_of_mem _ ha)) (assign_rr hp h)
        | err hp => exact .err (assign_rr hp h)
        | crash => exact .crash
        | unsup => exact .unsup

/-! ## Fields -/

/-- The number of an old field among the old ones. -/
def oldIx : EFields → Nat → Nat
  | [], _ => 0
  | _ :: _, 0 => 0
  | (_, _, _, isNew, _) :: fs, j + 1 => (if isNew then 0 else 1) + oldIx fs j

theorem new_names : ∀ fs : EFields, (newF fs).map (·.1) = fs.map (·.1)
  | [] => rfl
  | (n, _, _, _, e) :: fs => by simp only [newF, List.map_cons, new_names fs]

theorem old_names : ∀ (fs : EFields), ∀ n ∈ (oldF fs).map (·.1), n ∈ fs.map (·.1)
  | [], n, h => h
  | (m, _, _, b, e) :: fs, n, h => by
    simp only [oldF] at h
    split at h
    · exact List.mem_cons_of_mem _ (old_names fs n h)
    · rcases List.mem_cons.1 h with rfl | h
      · exact List.mem_cons_self
      · exact List.mem_cons_of_mem _ (old_names fs n h)

theorem first_le {P : Bytes → Prop} : ∀ {names : List Bytes} {i k : Nat}, FirstField P (names.zipIdx i) k → i ≤ k
  | [], _, _, h => by cases h
  | n :: names, i, k, h => by
    rw [List.zipIdx_cons] at h
    cases h with
    | here _ => exact Nat.le_refl _
    | there _ h => have := first_le h; omega

theorem first_mem {P : Bytes → Prop} : ∀ {names : List Bytes} {i k : Nat}, FirstField P (names.zipIdx i) k → ∃ n ∈ names, P n
  | [], _, _, h => by cases h
  | n :: names, i, k, h => by
    rw [List.zipIdx_cons] at h
    cases h with
    | here hp => exact ⟨n, List.mem_cons_self, hp⟩
    | there _ h => obtain ⟨m, h1, h2⟩ := first_mem h; exact ⟨m, List.mem_cons_of_mem _ h1, h2⟩

theorem first_ex {P : Bytes → Prop} : ∀ {names : List Bytes} (i : Nat), (∃ n ∈ names, P n) → ∃ k, FirstField P (names.zipIdx i) k
  | [], _, h => by obtain ⟨_, h, _⟩ := h; cases h
  | n :: names, i, h => by
    rw [List.zipIdx_cons]
    by_cases hp : P n
    · exact ⟨_, .here hp⟩
    · obtain ⟨m, h1, h2⟩ := h
      rcases List.mem_cons.1 h1 with rfl | h1
      · exact absurd h2 hp
      · obtain ⟨k, hk⟩ := first_ex (i + 1) ⟨m, h1, h2⟩
        exact ⟨k, .there hp hk⟩

theorem zip_fst : ∀ (names : List Bytes) (i : Nat), (names.zipIdx i).map (·.1) = names
  | [], _ => rfl
  | n :: names, i => by rw [List.zipIdx_cons, List.map_cons, zip_fst names]

theorem zip_mem {names : List Bytes} {i : Nat} {f : Bytes × Nat} (h : f ∈ names.zipIdx i) : f.1 ∈ names := by
  have : f.1 ∈ (names.zipIdx i).map (·.1) := List.mem_map_of_mem h
  rwa [zip_fst] at this

theorem mem_zip {names : List Bytes} (i : Nat) {n : Bytes} (h : n ∈ names) : ∃ f ∈ names.zipIdx i, f.1 = n := by
  have : n ∈ (names.zipIdx i).map (·.1) := by rwa [zip_fst]
  obtain ⟨f, h1, h2⟩ := List.mem_map.1 this
  exact ⟨f, h1, h2⟩

theorem noField_iff {P : Bytes → Prop} {names : List Bytes} {i : Nat} : NoField P (names.zipIdx i) ↔ ∀ n ∈ names, ¬ P n := by
  constructor
  · intro h n hn
    obtain ⟨f, h1, rfl⟩ := mem_zip i hn
    exact h f h1
  · intro h f hf
    exact h _ (zip_mem hf)

theorem first_old {P : Bytes → Prop} : ∀ {fs : EFields} {i i' j : Nat} {f : Bytes × Nat × Nat × Bool × ETy}, FirstField P ((fs.map (·.1)).zipIdx i) (i + j) → fs[j]? = some f → f.2.2.2.1 = false →
    FirstField P (((oldF fs).map (·.1)).zipIdx i') (i' + oldIx fs j)
  | [], _, _, _, _, h, _, _ => by cases h
  | (n, a, b, c, e) :: fs, i, i', j, f, h, hf, hn => by
    rw [List.map_cons, List.zipIdx_cons] at h
    generalize hk : i + j = k at h
    cases h with
    | here hp =>
      have : j = 0 := by omega
      subst this
      cases hf
      simp only at hn
      subst hn
      simp only [oldF, oldIx, Bool.false_eq_true, if_false, List.map_cons, List.zipIdx_cons, Nat.add_zero]
      exact FirstField.here (f := (n, i')) hp
    | there hp h =>
      have := first_le h
      obtain ⟨j', rfl⟩ : ∃ j', j = j' + 1 := ⟨j - 1, by omega⟩
      have h' : FirstField P ((fs.map (·.1)).zipIdx (i + 1)) (i + 1 + j') := by rw [show i + 1 + j' = k by omega]; exact h
      simp only [oldF, oldIx]
      cases c with
      | true =>
        simp only [if_true, Nat.zero_add]
        exact first_old h' (by simpa using hf) hn
      | false =>
        simp only [Bool.false_eq_true, if_false, List.map_cons, List.zipIdx_cons]
        refine .there hp ?_
        have := first_old (i' := i' + 1) h' (by simpa using hf) hn
        rw [show i' + (1 + oldIx fs j') = i' + 1 + oldIx fs j' by omega]
        exact this

/-- A name that selects an old field of the new type selects it in the old type. -/
theorem sel_old {x : Ext} {o : Options} {fs : EFields} {name : Bytes} {j : Nat} {f : Bytes × Nat × Nat × Bool × ETy} (h : SelectsField x o (fs.map (·.1)) name j) (hf : fs[j]? = some f) (hn : f.2.2.2.1 = false) :
    SelectsField x o ((oldF fs).map (·.1)) name (oldIx fs j) := by
  have key : ∀ P : Bytes → Prop, FirstField P ((fs.map (·.1)).zipIdx) j → FirstField P (((oldF fs).map (·.1)).zipIdx) (oldIx fs j) := by
    intro P hP
    have := first_old (i := 0) (i' := 0) (j := j) (by rw [Nat.zero_add]; exact hP) hf hn
    rwa [Nat.zero_add] at this
  unfold SelectsField at h ⊢
  split
  · rename_i ho; rw [if_pos ho] at h; exact key _ h
  · rename_i ho
    rw [if_neg ho] at h
    cases h with
    | exact h => exact .exact (key _ h)
    | folded h1 h2 => exact .folded (noField_iff.2 fun n hn => noField_iff.1 h1 n (old_names fs n hn)) (key _ h2)

/-- A name that selects no field of the new type selects none of the old type. -/
theorem sel_none {x : Ext} {o : Options} {fs : EFields} {name : Bytes} (h : ∀ j, ¬ SelectsField x o (fs.map (·.1)) name j) : ∀ j, ¬ SelectsField x o ((oldF fs).map (·.1)) name j := by
  intro j hj
  have key : ∀ P : Bytes → Prop, FirstField P (((oldF fs).map (·.1)).zipIdx) j → ∃ k, FirstField P ((fs.map (·.1)).zipIdx) k := by
    intro P hP
    obtain ⟨n, h1, h2⟩ := first_mem hP
    exact first_ex 0 ⟨n, old_names fs n h1, h2⟩
  unfold SelectsField at hj h
  split at hj
  · rename_i ho
    obtain ⟨k, hk⟩ := key _ hj
    have := h k
    rw [if_pos ho] at this
    exact this hk
  · rename_i ho
    cases hj with
    | exact hj =>
      obtain ⟨k, hk⟩ := key _ hj
      have := h k
      rw [if_neg ho] at this
      exact this (.exact hk)
    | folded h1 h2 =>
      obtain ⟨k, hk⟩ := key _ h2
      by_cases he : ∃ n ∈ fs.map (·.1), n = name
      · obtain ⟨k', hk'⟩ := first_ex 0 he
        have := h k'
        rw [if_neg ho] at this
        exact this (.exact hk')
      · have := h k
        rw [if_neg ho] at this
        exact this (.folded (noField_iff.2 fun n hn hp => he ⟨n, hn, hp⟩) hk)

theorem newF_get {x : Ext} {src : Bytes} {o : Option Options} : ∀ {fs : EFields} {j : Nat} {f : Bytes × Nat × Nat × Bool × ETy}, fs[j]? = some f → (decPVF x src o (newF fs))[j]? = some (f.1, decPV x src o f.2.2.2.2.new)
  | (n, a, b, c, e) :: fs, 0, f, h => by cases h; rfl
  | (n, a, b, c, e) :: fs, j + 1, f, h => by simp only [newF, decPVF, List.getElem?_cons_succ]; exact newF_get (by simpa using h)

theorem oldF_get {x : Ext} {src : Bytes} {o : Option Options} : ∀ {fs : EFields} {j : Nat} {f : Bytes × Nat × Nat × Bool × ETy}, fs[j]? = some f → f.2.2.2.1 = false →
    (decPVF x src o (oldF fs))[oldIx fs j]? = some (f.1, decPV x src o f.2.2.2.2.old)
  | (n, a, b, c, e) :: fs, 0, f, h, hn => by cases h; simp only at hn; subst hn; rfl
  | (n, a, b, c, e) :: fs, j + 1, f, h, hn => by
    have ih := oldF_get (x := x) (src := src) (o := o) (fs := fs) (j := j) (by simpa using h) hn
    simp only [oldF, oldIx]
    cases c with
    | true => simp only [if_true, Nat.zero_add]; exact ih
    | false => simp only [Bool.false_eq_true, if_false, decPVF, Nat.add_comm 1, List.getElem?_cons_succ]; exact ih

theorem seesF_get : ∀ {fs : EFields} {j : Nat} {f : Bytes × Nat × Nat × Bool × ETy} {Vs Ws : List Val}, fs[j]? = some f → f.2.2.2.1 = false → SeesF fs Vs Ws →
    ∃ V W, Vs[oldIx fs j]? = some V ∧ Ws[j]? = some W ∧ Sees f.2.2.2.2 V W ∧ ∀ V' W', Sees f.2.2.2.2 V' W' → SeesF fs (Vs.set (oldIx fs j) V') (Ws.set j W')
  | (n, a, b, c, e) :: fs, 0, f, Vs, Ws, h, hn, hs => by
    cases h
    simp only at hn
    subst hn
    simp only [SeesF, Bool.false_eq_true, if_false] at hs
    obtain ⟨V, Vs', W, Ws', rfl, rfl, h1, h2⟩ := hs
    refine ⟨V, W, rfl, rfl, h1, fun V' W' h' => ?_⟩
    simp only [SeesF, Bool.false_eq_true, if_false]
    exact ⟨V', Vs', W', Ws', rfl, rfl, h', h2⟩
  | (n, a, b, c, e) :: fs, j + 1, f, Vs, Ws, h, hn, hs => by
    cases c with
    | true =>
      simp only [SeesF, if_true] at hs
      obtain ⟨W, Ws', rfl, hs⟩ := hs
      obtain ⟨V1, W1, h1, h2, h3, h4⟩ := seesF_get (fs := fs) (j := j) (by simpa using h) hn hs
      simp only [oldIx, if_true, Nat.zero_add]
      refine ⟨V1, W1, h1, by simpa using h2, h3, fun V' W' h' => ?_⟩
      simp only [SeesF, if_true]
      exact ⟨W, _, rfl, h4 V' W' h'⟩
    | false =>
      simp only [SeesF, Bool.false_eq_true, if_false] at hs
      obtain ⟨V, Vs', W, Ws', rfl, rfl, h0, hs⟩ := hs
      obtain ⟨V1, W1, h1, h2, h3, h4⟩ := seesF_get (fs := fs) (j := j) (by simpa using h) hn hs
      simp only [oldIx, Bool.false_eq_true, if_false, Nat.add_comm 1]
      refine ⟨V1, W1, by simpa using h1, by simpa using h2, h3, fun V' W' h' => ?_⟩
      simp only [SeesF, Bool.false_eq_true, if_false]
      exact ⟨V, _, W, _, rfl, rfl, h0, h4 V' W' h'⟩

theorem unawareF_get {x : Ext} {src : Bytes} {o : Options} : ∀ {fs : EFields} {j : Nat} {f : Bytes × Nat × Nat × Bool × ETy}, fs[j]? = some f →
    (UnawareF x src o fs)[j]? = some (fun v => f.2.2.2.1 = false ∧ Unaware x src o f.2.2.2.2 v)
  | (n, a, b, c, e) :: fs, 0, f, h => by cases h; rfl
  | (n, a, b, c, e) :: fs, j + 1, f, h => by simp only [UnawareF, List.getElem?_cons_succ]; exact unawareF_get (by simpa using h)

theorem decPVF_names {x : Ext} {src : Bytes} {o : Option Options} : ∀ fs : List (Bytes × Nat × Ty), (decPVF x src o fs).map (·.1) = fs.map (·.1)
  | [] => rfl
  | (n, a, t) :: fs => by simp only [decPVF, List.map_cons, decPVF_names fs]

theorem sel_lt {x : Ext} {o : Options} {names : List Bytes} {name : Bytes} {j : Nat} (h : SelectsField x o names name j) : j < names.length := by
  have key : ∀ P : Bytes → Prop, ∀ (ns : List Bytes) (i : Nat), FirstField P (ns.zipIdx i) j → j < i + ns.length := by
    intro P ns
    induction ns with
    | nil => intro i h; cases h
    | cons n ns ih =>
      intro i h
      rw [List.zipIdx_cons] at h
      cases h with
      | here _ => simp
      | there _ h => have := ih (i + 1) h; simp only [List.length_cons]; omega
  unfold SelectsField at h
  split at h
  · have := key _ _ 0 h; omega
  · cases h with
    | exact h => have := key _ _ 0 h; omega
    | folded _ h => have := key _ _ 0 h; omega

/-- The members of an object. -/
theorem struct_rr {x : Ext} {src : Bytes} {o : Options} {fs : EFields}
    (ih : ∀ f ∈ fs, ∀ v V W, Wf src v → Unaware x src o f.2.2.2.2 v → Sees f.2.2.2.2 V W → RR (Sees f.2.2.2.2) (decPV x src (some o) f.2.2.2.2.old v V) (decPV x src (some o) f.2.2.2.2.new v W)) :
    ∀ {ms : List ((Nat × Nat) × JVal)} {Vs Ws : List Val}, WfM src ms → (∀ m ∈ ms, ∀ j P, KeySelects x src o (fs.map (·.1)) m.1 j → (UnawareF x src o fs)[j]? = some P → P m.2) → SeesF fs Vs Ws →
    RR (SeesF fs) (structV x src o (decPVF x src (some o) (oldF fs)) ms Vs) (structV x src o (decPVF x src (some o) (newF fs)) ms Ws)
  | [], Vs, Ws, _, _, h => .ok h
  | ((i, e), v) :: ms, Vs, Ws, hw, hu, h => by
    have ihm := fun {Vs Ws : List Val} => struct_rr ih (ms := ms) (Vs := Vs) (Ws := Ws) hw.2.2 (fun m hm => hu m (List.mem_cons_of_mem _ hm))
    obtain ⟨name, hname, hsel, -⟩ := key_fun x o (fs.map (·.1)) hw.1
    simp only at hname hsel
    simp only [structV, hname, decPVF_names, new_names]
    cases hj : findField x o ((fs.map (·.1)).zipIdx) name with
    | none =>
      rw [unknown_iff.2 (sel_none (unknown_iff.1 hj))]
      simp only []
      split
      · exact .err h
      · split
        · exact .unsup
        · exact ihm h
    | some j =>
      have hs := selects_iff.1 hj
      have hlt : j < fs.length := by have := sel_lt hs; simpa using this
      have hf : fs[j]? = some fs[j] := List.getElem?_eq_getElem hlt
      obtain ⟨hn, huf⟩ := hu _ List.mem_cons_self j _ ((hsel j).2 hj) (unawareF_get hf)
      rw [selects_iff.2 (sel_old hs hf hn)]
      obtain ⟨V, W, h1, h2, h3, h4⟩ := seesF_get hf hn h
      simp only [newF_get hf, oldF_get hf hn, h1, h2]
      have hr := ih _ (List.getElem_mem hlt) v V W hw.2.1 huf h3
      revert hr
      generalize decPV x src (some o) _ v V = r
      generalize decPV x src (some o) _ v W = s
      intro hr
      cases hr with
      | ok hp => exact ihm (h4 _ _ hp)
      | err hp => exact .err (h4 _ _ hp)
      | crash => exact .crash
      | unsup => exact .unsup

/-! ## Types -/

theorem etype_eq (e : ETy) : e.old.etype = e.new.etype := by cases e <;> rfl

mutual
theorem zero_sees {x : Ext} : ∀ e : ETy, Sees e (zeroV x e.old) (zeroV x e.new)
  | .same t => rfl
  | .array n e => ⟨_, _, rfl, rfl, by simp, pairs_replicate (zero_sees e) n⟩
  | .slice e => .inl ⟨rfl, rfl⟩
  | .map k e => .inl ⟨rfl, rfl⟩
  | .ptr e => .inl ⟨rfl, rfl⟩
  | .struct _ _ fs => ⟨_, _, rfl, rfl, zero_seesF fs⟩
theorem zero_seesF {x : Ext} : ∀ fs : EFields, SeesF fs (zeroF x (oldF fs)) (zeroF x (newF fs))
  | [] => ⟨rfl, rfl⟩
  | (n, a, b, c, e) :: fs => by
    cases c with
    | true => simp only [SeesF, oldF, newF, if_true]; exact ⟨_, _, rfl, zero_seesF fs⟩
    | false => simp only [SeesF, oldF, newF, Bool.false_eq_true, if_false]; exact ⟨_, _, _, _, rfl, rfl, zero_sees e, zero_seesF fs⟩
end

/-- Tokens for composite types store nothing. -/
theorem leaf_comp {x : Ext} {src : Bytes} {et : EType} (h : et = .array ∨ et = .slice ∨ et = .map ∨ et = .struct) (v : JVal) :
    (∃ n, leaf x src et v = .clear n) ∨ leaf x src et v = .nop ∨ (∃ e, leaf x src et v = .err e) ∨ leaf x src et v = .crash := by
  rcases h with rfl | rfl | rfl | rfl <;> cases v <;> simp only [leaf] <;> first
    | (simp [onNull, onBool]; done)
    | (rename_i b i e; cases b <;> simp only [leaf] <;> split <;> simp [onInteger, onNumber]; done)
    | (split <;> simp [onString]; done)
    | skip

theorem leaf_rr {x : Ext} {src : Bytes} {e : ETy} {t t' : Ty} (ht : t = e.old) (ht' : t' = e.new) (he : t.etype = .array ∨ t.etype = .slice ∨ t.etype = .map ∨ t.etype = .struct) (v : JVal) {V W : Val} (h : Sees e V W) :
    RR (Sees e) (leafV x src t v V) (leafV x src t' v W) := by
  have hee : t'.etype = t.etype := by rw [ht, ht']; exact (etype_eq e).symm
  simp only [leafV, hee]
  rcases leaf_comp (x := x) (src := src) he v with ⟨n, h1⟩ | h1 | ⟨er, h1⟩ | h1 <;> rw [h1] <;> simp only [actV]
  · rw [ht, ht']; exact .ok (zero_sees e)
  · exact .ok h
  · exact .err h
  · exact .crash

mutual
/-- The readings of the old and of the new type. -/
theorem dec_ev {x : Ext} {src : Bytes} {o : Options} : ∀ (e : ETy) (v : JVal) (V W : Val), Wf src v → Unaware x src o e v → Sees e V W → RR (Sees e) (decPV x src (some o) e.old v V) (decPV x src (some o) e.new v W)
  | .same t, v, V, W, _, _, h => by cases h; exact RR.refl _
  | .array n e, v, V, W, hw, hu, h => by
    cases v with
    | arr i vs z =>
      obtain ⟨Vs, Ws, rfl, rfl, hn, hp⟩ := h
      exact (elems_rr (fun v hv V W hs => dec_ev e v V W (wfL_mem hw.2.2.2.2 v (List.mem_of_mem_take hv)) (hu v (hn ▸ hv)) hs) hp).map fun a b hab => ⟨a, b, rfl, rfl, hab.1.trans hn, hab.2⟩
    | _ => exact leaf_rr (e := .array n e) rfl rfl (.inl rfl) _ h
  | .slice e, v, V, W, hw, hu, h => by
    cases v with
    | arr i vs z =>
      show RR (Sees (.slice e)) (sliceV _ _ _ vs V) (sliceV _ _ _ vs W)
      rw [← etype_eq e]
      exact slice_rr (zero_sees e) (fun v hv V W hs => dec_ev e v V W (wfL_mem hw.2.2.2.2 v hv) (hu v hv) hs) h
    | _ => exact leaf_rr (e := .slice e) rfl rfl (.inr (.inl rfl)) _ h
  | .map k e, v, V, W, hw, hu, h => by
    cases v with
    | obj i ms z =>
      have hp : AllPairs (fun a b : Key × Val => a.1 = b.1 ∧ Sees e a.2 b.2) (mapParts V) (mapParts W) := by
        rcases h with ⟨rfl, rfl⟩ | ⟨Vs, Ws, rfl, rfl, h⟩
        · exact trivial
        · exact h
      simp only [ETy.old, ETy.new, decPV, ← etype_eq e]
      split
      · exact .unsup
      · exact (map_rr (zero_sees e) (fun a ha V W hs => dec_ev e a.2 V W (wfM_mem hw.2.2.2.2 a ha).2 (hu a ha) hs) hp).map fun a b hab => .inr ⟨a, b, rfl, rfl, hab⟩
    | _ => exact leaf_rr (e := .map k e) rfl rfl (.inr (.inr (.inl rfl))) _ h
  | .ptr e, v, V, W, hw, hu, h => by
    have key := (dec_ev e v _ _ hw hu (zero_sees (x := x) e)).map (Q := Sees (.ptr e)) (f := .ptr) (g := .ptr) fun a b hab => .inr ⟨a, b, rfl, rfl, hab⟩
    cases v with
    | null => exact .ok (.inl ⟨rfl, rfl⟩)
    | _ => exact key
  | .struct n n' fs, v, V, W, hw, hu, h => by
    cases v with
    | obj i ms z =>
      obtain ⟨Vs, Ws, rfl, rfl, h⟩ := h
      simp only [ETy.old, ETy.new, decPV]
      split
      · exact .ok ⟨_, _, rfl, rfl, h⟩
      · exact (struct_rr (dec_evF fs) hw.2.2.2.2 hu h).map fun a b hab => ⟨a, b, rfl, rfl, hab⟩
    | _ => exact leaf_rr (e := .struct n n' fs) rfl rfl (.inr (.inr (.inr rfl))) _ h
theorem dec_evF {x : Ext} {src : Bytes} {o : Options} : ∀ (fs : EFields), ∀ f ∈ fs, ∀ v V W, Wf src v → Unaware x src o f.2.2.2.2 v → Sees f.2.2.2.2 V W →
    RR (Sees f.2.2.2.2) (decPV x src (some o) f.2.2.2.2.old v V) (decPV x src (some o) f.2.2.2.2.new v W)
  | (n, a, b, c, e) :: fs, f, hf, v, V, W, hw, hu, h => by
    rcases List.mem_cons.1 hf with rfl | hf
    · exact dec_ev e v V W hw hu h
    · exact dec_evF fs f hf v V W hw hu h
end

theorem rightF_new {x : Ext} {src : Bytes} {o : Option Options} : ∀ {fs : EFields} {j : Nat} {f : Bytes × Nat × Nat × Bool × ETy}, fs[j]? = some f → (RightF x src o (newF fs))[j]? = some (Right x src o f.2.2.2.2.new)
  | (n, a, b, c, e) :: fs, 0, f, h => by cases h; rfl
  | (n, a, b, c, e) :: fs, j + 1, f, h => by simp only [newF, RightF, List.getElem?_cons_succ]; exact rightF_new (by simpa using h)

theorem rightF_old {x : Ext} {src : Bytes} {o : Option Options} : ∀ {fs : EFields} {j : Nat} {f : Bytes × Nat × Nat × Bool × ETy}, fs[j]? = some f → f.2.2.2.1 = false →
    (RightF x src o (oldF fs))[oldIx fs j]? = some (Right x src o f.2.2.2.2.old)
  | (n, a, b, c, e) :: fs, 0, f, h, hn => by cases h; simp only at hn; subst hn; rfl
  | (n, a, b, c, e) :: fs, j + 1, f, h, hn => by
    have ih := rightF_old (x := x) (src := src) (o := o) (fs := fs) (j := j) (by simpa using h) hn
    simp only [oldF, oldIx]
    cases c with
    | true => simp only [if_true, Nat.zero_add]; exact ih
    | false => simp only [Bool.false_eq_true, if_false, RightF, Nat.add_comm 1, List.getElem?_cons_succ]; exact ih

theorem butLast_imp {α : Type} {P P' Q Q' : α → Prop} : ∀ {l : List α}, (∀ a ∈ l, P a → P' a) → (∀ a ∈ l, Q a → Q' a) → ButLast P Q l → ButLast P' Q' l
  | [], _, _, _ => trivial
  | [a], _, hq, h => hq a (by simp) h
  | a :: b :: l, hp, hq, h => ⟨hp a (by simp) h.1, butLast_imp (l := b :: l) (fun c hc => hp c (List.mem_cons_of_mem _ hc)) (fun c hc => hq c (List.mem_cons_of_mem _ hc)) h.2⟩

theorem size_ev {x : Ext} : ∀ e : ETy, e.Grows → e.old.size x ≤ e.new.size x
  | .same t, _ => Nat.le_refl _
  | .array n e, h => Nat.mul_le_mul_left n (size_ev e h)
  | .slice e, _ => Nat.le_refl _
  | .map k e, _ => Nat.le_refl _
  | .ptr e, _ => Nat.le_refl _
  | .struct n n' fs, h => h.1

mutual
/-- The new type reaches no other spots. -/
theorem right_ev {x : Ext} {src : Bytes} {o : Options} : ∀ (e : ETy) (p : Place) (v : JVal), e.Grows → Wf src v → Unaware x src o e v → Right x src (some o) e.old p v → Right x src (some o) e.new p v
  | .same t, p, v, _, _, _, h => h
  | .array n e, p, v, hg, hw, hu, h => by
    cases v with
    | arr i vs z =>
      simp only [ETy.old, ETy.new, Right] at h ⊢
      split at h
      · rename_i hl
        rw [if_pos hl]
        have hu' : ∀ w ∈ vs, Unaware x src o e w := fun w hwm => hu w (by rw [List.take_of_length_le hl]; exact hwm)
        exact butLast_imp (fun w hwm hr => right_ev e .inside w hg (wfL_mem hw.2.2.2.2 w hwm) (hu' w hwm) hr) (fun w hwm hr => right_ev e .last w hg (wfL_mem hw.2.2.2.2 w hwm) (hu' w hwm) hr) h
      · rename_i hl
        rw [if_neg hl]
        exact fun w hwm => right_ev e .inside w hg (wfL_mem hw.2.2.2.2 w (List.mem_of_mem_take hwm)) (hu w hwm) (h w hwm)
    | _ => trivial
  | .slice e, p, v, hg, hw, hu, h => by
    cases v with
    | arr i vs z => exact butLast_imp (fun w hwm hr => right_ev e .inside w hg (wfL_mem hw.2.2.2.2 w hwm) (hu w hwm) hr) (fun w hwm hr => right_ev e .last w hg (wfL_mem hw.2.2.2.2 w hwm) (hu w hwm) hr) h
    | _ => trivial
  | .map k e, p, v, hg, hw, hu, h => by
    cases v with
    | obj i ms z =>
      exact ⟨h.1, butLast_imp (fun m hm hr => right_ev e .inside m.2 hg (wfM_mem hw.2.2.2.2 m hm).2 (hu m hm) hr) (fun m hm hr => right_ev e p m.2 hg (wfM_mem hw.2.2.2.2 m hm).2 (hu m hm) hr) h.2⟩
    | _ => trivial
  | .ptr e, p, v, hg, hw, hu, h => by
    have hs := size_ev (x := x) e hg
    have ih := fun p => right_ev e p v hg hw hu
    cases v with
    | null => trivial
    | _ =>
      refine ⟨by have := h.1; omega, ?_⟩
      cases p with
      | inside => exact h.2
      | last => exact ih _ h.2
      | final => exact ih _ h.2
  | .struct n n' fs, p, v, hg, hw, hu, h => by
    cases v with
    | obj i ms z =>
      intro o' ho'
      have h0 := h o' ho'
      cases ho'
      have key : ∀ p, ∀ m ∈ ms, RightM x src o ((oldF fs).map (·.1)) (RightF x src (some o) (oldF fs)) p m → RightM x src o ((newF fs).map (·.1)) (RightF x src (some o) (newF fs)) p m := by
        intro p m hm h0 raw name hraw hkn
        have h0 := h0 raw name hraw hkn
        rw [new_names]
        cases hj : findField x o ((fs.map (·.1)).zipIdx) name with
        | none =>
          rw [unknown_iff.2 (sel_none (unknown_iff.1 hj))] at h0
          exact h0
        | some j =>
          intro T hT
          have hs := selects_iff.1 hj
          have hlt : j < fs.length := by have := sel_lt hs; simpa using this
          have hf : fs[j]? = some fs[j] := List.getElem?_eq_getElem hlt
          have hwm := wfM_mem hw.2.2.2.2 m hm
          obtain ⟨name', hname, hsel, -⟩ := key_fun x o (fs.map (·.1)) hwm.1
          rw [hraw, Option.bind_some, hkn] at hname
          cases hname
          obtain ⟨hn, huf⟩ := hu m hm j _ ((hsel j).2 hj) (unawareF_get hf)
          rw [selects_iff.2 (sel_old hs hf hn)] at h0
          rw [rightF_new hf] at hT
          cases hT
          exact right_evF fs hg.2 _ (List.getElem_mem hlt) p m.2 hwm.2 huf (h0 _ (rightF_old hf hn))
      exact butLast_imp (key .inside) (key p) h0
    | _ => trivial
theorem right_evF {x : Ext} {src : Bytes} {o : Options} : ∀ (fs : EFields), GrowsF fs → ∀ f ∈ fs, ∀ p v, Wf src v → Unaware x src o f.2.2.2.2 v → Right x src (some o) f.2.2.2.2.old p v → Right x src (some o) f.2.2.2.2.new p v
  | (n, a, b, c, e) :: fs, hg, f, hf, p, v, hw, hu, h => by
    rcases List.mem_cons.1 hf with rfl | hf
    · exact right_ev e p v hg.1 hw hu h
    · exact right_evF fs hg.2 f hf p v hw hu h
end

end Verif.Proof.Evolve

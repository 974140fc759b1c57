import Verif.Proof.Twice
import Verif.Proof.MeansConv
import Verif.Spec.Reorder
/-!
# A checker for documents without duplicate members, for examples
-/
namespace Verif.Proof.OnceB
open Verif.Model Verif.Big Verif.Spec Verif.Proof Verif.Proof.Outcome Verif.Proof.Comp Verif.Proof.Safe

/-- The field a key selects, as computed. -/
def fieldAt (x : Ext) (src : Bytes) (o : Options) (names : List Bytes) (k : Nat × Nat) : Option Nat :=
  ((Model.slice src (k.1 + 1) (k.2 - 1)).bind (keyName o)).bind (findField x o names.zipIdx)

/-- No two elements are related by `p`. -/
def apartB {α : Type} (p : α → α → Bool) : List α → Bool
  | [] => true
  | a :: as => as.all (fun b => !p a b) && apartB p as

/-- Both members select the same field. -/
def sameField (x : Ext) (src : Bytes) (o : Options) (names : List Bytes) (m m' : (Nat × Nat) × JVal) : Bool :=
  match fieldAt x src o names m.1, fieldAt x src o names m'.1 with
  | some j, some j' => j == j'
  | _, _ => false

/-- Both members have the same map key. -/
def sameEntry (x : Ext) (src : Bytes) (k : KeyTy) (m m' : (Nat × Nat) × JVal) : Bool :=
  match keyAt x src k m.1, keyAt x src k m'.1 with
  | some (.ok K), some (.ok K') => K.same K'
  | _, _ => false

/-- The key text gives a map key. -/
def hasKey (x : Ext) (src : Bytes) (k : KeyTy) (m : (Nat × Nat) × JVal) : Bool :=
  match keyAt x src k m.1 with
  | some (.ok _) => true
  | _ => false

/-- Keys that are not integers. -/
def notInt : KeyTy → Bool
  | .int _ => false
  | _ => true

mutual
/-- Checker for `Once` and `Keyed`, without maps with integer keys. -/
def onceB (x : Ext) (src : Bytes) (o : Options) : Ty → JVal → Bool
  | .array n e, v =>
    match v with
    | .arr _ vs _ => (vs.take n).all (onceB x src o e)
    | _ => true
  | .slice e, v =>
    match v with
    | .arr _ vs _ => vs.all (onceB x src o e)
    | _ => true
  | .map k e, v =>
    match v with
    | .obj _ ms _ => notInt k && ms.all (hasKey x src k) && apartB (sameEntry x src k) ms && ms.all fun m => onceB x src o e m.2
    | _ => true
  | .mapSS, v =>
    match v with
    | .obj _ ms _ => apartB (sameEntry x src .str) ms
    | _ => true
  | .struct _ fs, v =>
    match v with
    | .obj _ ms _ => apartB (sameField x src o (fs.map (·.1))) ms && ms.all fun m =>
        match fieldAt x src o (fs.map (·.1)) m.1 with
        | some j => match (onceFB x src o fs)[j]? with
          | some T => T m.2
          | none => true
        | none => true
    | _ => true
  | .ptr e, v => onceB x src o e v
  | _, _ => true
/-- The fields of a struct. -/
def onceFB (x : Ext) (src : Bytes) (o : Options) : List (Bytes × Nat × Ty) → List (JVal → Bool)
  | [] => []
  | (_, _, t) :: fs => onceB x src o t :: onceFB x src o fs
end

theorem apartB_sound {α : Type} {p : α → α → Bool} (hs : ∀ a b, p a b = p b a) : ∀ {l : List α}, apartB p l = true → ∀ (i j : Nat) a b, l[i]? = some a → l[j]? = some b → p a b = true → i = j
  | [], _, i, _, a, b, h, _, _ => by simp at h
  | c :: l, h, 0, 0, a, b, ha, hb, hp => rfl
  | c :: l, h, 0, j + 1, a, b, ha, hb, hp => by
    simp only [apartB, Bool.and_eq_true, List.all_eq_true] at h
    simp only [List.getElem?_cons_zero, Option.some.injEq, List.getElem?_cons_succ] at ha hb
    subst ha
    have := h.1 b (List.mem_of_getElem? hb)
    rw [hp] at this; cases this
  | c :: l, h, i + 1, 0, a, b, ha, hb, hp => by
    simp only [apartB, Bool.and_eq_true, List.all_eq_true] at h
    simp only [List.getElem?_cons_zero, Option.some.injEq, List.getElem?_cons_succ] at ha hb
    subst hb
    have := h.1 a (List.mem_of_getElem? ha)
    rw [hs, hp] at this; cases this
  | c :: l, h, i + 1, j + 1, a, b, ha, hb, hp => by
    simp only [apartB, Bool.and_eq_true] at h
    simp only [List.getElem?_cons_succ] at ha hb
    rw [apartB_sound hs h.2 i j a b ha hb hp]

theorem field_of {x : Ext} {src : Bytes} {o : Options} {names : List Bytes} {k : Nat × Nat} {j : Nat} (hw : WfStr src k.1 k.2) (h : KeySelects x src o names k j) : fieldAt x src o names k = some j := by
  obtain ⟨n, h1, h2⟩ := key_selects hw h
  simp [fieldAt, h1, h2]

theorem sameField_symm {x : Ext} {src : Bytes} {o : Options} {names : List Bytes} (a b : (Nat × Nat) × JVal) : sameField x src o names a b = sameField x src o names b a := by
  unfold sameField
  cases fieldAt x src o names a.1 <;> cases fieldAt x src o names b.1 <;> simp [BEq.comm]

theorem sameEntry_symm {x : Ext} {src : Bytes} {k : KeyTy} (a b : (Nat × Nat) × JVal) : sameEntry x src k a b = sameEntry x src k b a := by
  have hc : ∀ K K' : Key, K.same K' = K'.same K := by
    intro K K'
    cases h : K.same K' with
    | true => rw [same_symm h]
    | false =>
      cases h' : K'.same K with
      | true => rw [same_symm h'] at h; cases h
      | false => rfl
  unfold sameEntry
  split
  · rename_i K K' h1 h2; simp only [h1, h2, hc]
  · rename_i h
    split
    · rename_i K K' h1 h2; exact (h _ _ h2 h1).elim
    · rfl

theorem entries_once {x : Ext} {src : Bytes} {k : KeyTy} {ms : List ((Nat × Nat) × JVal)} (hw : WfM src ms) (h : apartB (sameEntry x src k) ms = true) :
    ∀ (a b : Nat) m m' K, ms[a]? = some m → ms[b]? = some m' → KeyOf x k (inner src m.1.1 m.1.2) K → KeyOf x k (inner src m'.1.1 m'.1.2) K → a = b := by
  intro a b m m' K ha hb hK hK'
  obtain ⟨L, e1, e2⟩ := keyAt_of (wfM_mem hw m (List.mem_of_getElem? ha)).1 hK
  obtain ⟨L', e1', e2'⟩ := keyAt_of (wfM_mem hw m' (List.mem_of_getElem? hb)).1 hK'
  refine apartB_sound sameEntry_symm h a b m m' ha hb ?_
  simp only [sameEntry, e1, e1']
  exact same_trans e2 (same_symm e2')

theorem keyed_of {x : Ext} {src : Bytes} {k : KeyTy} (hk : notInt k = true) {m : (Nat × Nat) × JVal} (hw : WfStr src m.1.1 m.1.2) (h : hasKey x src k m = true) :
    ∃ K, KeyOf x k (inner src m.1.1 m.1.2) K := by
  unfold hasKey at h
  split at h
  · rename_i K hK
    obtain ⟨out, ho⟩ := hw.2.2
    unfold keyAt at hK
    rw [Doc.slice_inner hw] at hK
    exact ⟨K, Means.key_inv (by rintro ik rfl; cases hk) ho hK⟩
  · cases h

mutual
theorem onceB_sound {x : Ext} {src : Bytes} {o : Options} : ∀ (ty : Ty) {v : JVal}, Wf src v → onceB x src o ty v = true → Once x src o ty v ∧ Keyed x src o ty v
  | .array n e, v, hw, h => by
    constructor <;> rintro i vs k rfl w hwm <;> simp only [onceB, List.all_eq_true] at h
    · exact (onceB_sound e (wfL_mem hw.2.2.2.2 w (List.mem_of_mem_take hwm)) (h w hwm)).1
    · exact (onceB_sound e (wfL_mem hw.2.2.2.2 w (List.mem_of_mem_take hwm)) (h w hwm)).2
  | .slice e, v, hw, h => by
    constructor <;> rintro i vs k rfl w hwm <;> simp only [onceB, List.all_eq_true] at h
    · exact (onceB_sound e (wfL_mem hw.2.2.2.2 w hwm) (h w hwm)).1
    · exact (onceB_sound e (wfL_mem hw.2.2.2.2 w hwm) (h w hwm)).2
  | .map k e, v, hw, h => by
    constructor <;> rintro i ms z rfl <;> simp only [onceB, Bool.and_eq_true, List.all_eq_true] at h
    · exact ⟨fun m hm => (onceB_sound e (wfM_mem hw.2.2.2.2 m hm).2 (h.2 m hm)).1, entries_once hw.2.2.2.2 h.1.2⟩
    · exact fun m hm => ⟨keyed_of h.1.1.1 (wfM_mem hw.2.2.2.2 m hm).1 (h.1.1.2 m hm), (onceB_sound e (wfM_mem hw.2.2.2.2 m hm).2 (h.2 m hm)).2⟩
  | .mapSS, v, hw, h => by
    refine ⟨?_, trivial⟩
    rintro i ms z rfl
    simp only [onceB] at h
    exact entries_once hw.2.2.2.2 h
  | .struct n fs, v, hw, h => by
    have key : ∀ i ms z, v = .obj i ms z → ∀ m ∈ ms, ∀ j, KeySelects x src o (fs.map (·.1)) m.1 j → ∀ f, fs[j]? = some f → Once x src o f.2.2 m.2 ∧ Keyed x src o f.2.2 m.2 := by
      rintro i ms z rfl m hm j hs f hf
      simp only [onceB, Bool.and_eq_true, List.all_eq_true] at h
      have h2 := h.2 m hm
      rw [field_of (wfM_mem hw.2.2.2.2 m hm).1 hs] at h2
      obtain ⟨T, e1, e2⟩ := onceFB_sound fs hf (v := m.2) (wfM_mem hw.2.2.2.2 m hm).2
      refine e2 ?_
      simp only [] at h2
      split at h2
      · rename_i T' hT; rw [e1] at hT; cases hT; exact h2
      · rename_i hT; rw [e1] at hT; cases hT
    constructor
    · intro i ms z e
      refine ⟨fun m hm j P hs hP => ?_, ?_⟩
      · rw [Twice.onceF_get] at hP
        cases hf : fs[j]? with
        | none => rw [hf] at hP; cases hP
        | some f => rw [hf] at hP; cases hP; exact (key i ms z e m hm j hs f hf).1
      · subst e
        simp only [onceB, Bool.and_eq_true] at h
        intro a b m m' j ha hb hs hs'
        refine apartB_sound sameField_symm h.1 a b m m' ha hb ?_
        simp [sameField, field_of (wfM_mem hw.2.2.2.2 m (List.mem_of_getElem? ha)).1 hs, field_of (wfM_mem hw.2.2.2.2 m' (List.mem_of_getElem? hb)).1 hs']
    · intro i ms z e m hm j P hs hP
      rw [Twice.keyedF_get] at hP
      cases hf : fs[j]? with
      | none => rw [hf] at hP; cases hP
      | some f => rw [hf] at hP; cases hP; exact (key i ms z e m hm j hs f hf).2
  | .ptr e, v, hw, h => onceB_sound e hw h
  | .emptyStruct, v, hw, h => ⟨trivial, trivial⟩
  | .any, v, hw, h => ⟨trivial, trivial⟩
  | .number, v, hw, h => ⟨trivial, trivial⟩
  | .scalar k, v, hw, h => ⟨trivial, trivial⟩
  | .quoted k, v, hw, h => ⟨trivial, trivial⟩
  | .jsonU a b c, v, hw, h => ⟨trivial, trivial⟩
  | .textU a b c, v, hw, h => ⟨trivial, trivial⟩
  | .array0, v, hw, h => ⟨trivial, trivial⟩
  | .sliceOf k, v, hw, h => ⟨trivial, trivial⟩
  | .sliceES, v, hw, h => ⟨trivial, trivial⟩
theorem onceFB_sound {x : Ext} {src : Bytes} {o : Options} : ∀ (fs : List (Bytes × Nat × Ty)) {j : Nat} {f : Bytes × Nat × Ty}, fs[j]? = some f → ∀ {v : JVal}, Wf src v →
    ∃ T, (onceFB x src o fs)[j]? = some T ∧ (T v = true → Once x src o f.2.2 v ∧ Keyed x src o f.2.2 v)
  | [], j, f, h, v, hw => by simp at h
  | (a, b, t) :: fs, 0, f, h, v, hw => by
    simp only [List.getElem?_cons_zero, Option.some.injEq] at h
    subst h
    exact ⟨_, rfl, fun hv => onceB_sound t hw hv⟩
  | (a, b, t) :: fs, j + 1, f, h, v, hw => by
    simp only [List.getElem?_cons_succ] at h
    obtain ⟨T', h1, h2⟩ := onceFB_sound fs h hw
    exact ⟨T', by simpa only [onceFB, List.getElem?_cons_succ] using h1, h2⟩
end

mutual
/-- Checker for `NoRepeats`. -/
def noRepeatsB (x : Ext) (src : Bytes) : JVal → Bool
  | .arr _ vs _ => noRepeatsLB x src vs
  | .obj _ ms _ => apartB (sameEntry x src .str) ms && noRepeatsMB x src ms
  | _ => true
/-- Of elements. -/
def noRepeatsLB (x : Ext) (src : Bytes) : List JVal → Bool
  | [] => true
  | v :: vs => noRepeatsB x src v && noRepeatsLB x src vs
/-- Of members. -/
def noRepeatsMB (x : Ext) (src : Bytes) : List ((Nat × Nat) × JVal) → Bool
  | [] => true
  | m :: ms => noRepeatsB x src m.2 && noRepeatsMB x src ms
end

mutual
theorem noRepeatsB_sound {x : Ext} {src : Bytes} : ∀ (v : JVal), Wf src v → noRepeatsB x src v = true → NoRepeats src v
  | .null _ _, _, _ => trivial
  | .bool _ _ _, _, _ => trivial
  | .num _ _ _, _, _ => trivial
  | .str _ _, _, _ => trivial
  | .arr _ vs _, hw, h => noRepeatsLB_sound vs hw.2.2.2.2 h
  | .obj _ ms _, hw, h => by
    simp only [noRepeatsB, Bool.and_eq_true] at h
    exact ⟨fun a b m m' s ha hb hs hs' => entries_once (x := x) hw.2.2.2.2 h.1 a b m m' (.str ⟨s, false⟩) ha hb (.str hs) (.str hs'), noRepeatsMB_sound ms hw.2.2.2.2 h.2⟩
theorem noRepeatsLB_sound {x : Ext} {src : Bytes} : ∀ (vs : List JVal), WfL src vs → noRepeatsLB x src vs = true → NoRepeatsL src vs
  | [], _, _ => trivial
  | v :: vs, hw, h => by
    simp only [noRepeatsLB, Bool.and_eq_true] at h
    exact ⟨noRepeatsB_sound v hw.1 h.1, noRepeatsLB_sound vs hw.2 h.2⟩
theorem noRepeatsMB_sound {x : Ext} {src : Bytes} : ∀ (ms : List ((Nat × Nat) × JVal)), WfM src ms → noRepeatsMB x src ms = true → NoRepeatsM src ms
  | [], _, _ => trivial
  | (k, v) :: ms, hw, h => by
    simp only [noRepeatsMB, Bool.and_eq_true] at h
    exact ⟨noRepeatsB_sound v hw.2.1 h.1, noRepeatsMB_sound ms hw.2.2 h.2⟩
end

end Verif.Proof.OnceB

import Verif.Spec.Safe
import Verif.Proof.ValMap
import Verif.Proof.SimStruct
import Verif.Proof.Doc
import Verif.Props.Leaf
/-!
# Decoding well-formed documents into well-typed values does not crash
-/
namespace Verif.Proof.Safe
open Verif.Model Verif.Big Verif.Spec

/-- Values of a scalar kind. -/
def HasK : SKind → Val → Prop
  | .bool, V => ∃ b, V = .bool b
  | .str, V => ∃ s, V = .str s
  | .int _, V => ∃ i, V = .int i
  | .flt _, V => ∃ f, V = .flt f

mutual
/-- Values of a type. -/
def HasTy : Ty → Val → Prop
  | .any, V => ∃ a, V = .any a
  | .number, V => ∃ s, V = .str s
  | .scalar k, V => HasK k V
  | .quoted k, V => HasK k V
  | .jsonU _ n _, V => ∃ b, V = .user b ∧ b.length = n
  | .textU _ n _, V => ∃ b, V = .user b ∧ b.length = n
  | .array0, V => V = .arr []
  | .emptyStruct, V => V = .struct []
  | .array n e, V => ∃ es, V = .arr es ∧ es.length = n ∧ ∀ W ∈ es, HasTy e W
  | .slice e, V => V = .nil ∨ ∃ es sp, V = .slice es sp ∧ ∀ W ∈ es ++ sp, HasTy e W
  | .sliceOf k, V => V = .nil ∨ ∃ es sp, V = .slice es sp ∧ ∀ W ∈ es ++ sp, HasK k W
  | .sliceES, V => V = .nil ∨ ∃ es sp, V = .slice es sp ∧ ∀ W ∈ es ++ sp, W = .struct []
  | .mapSS, V => V = .nil ∨ ∃ es, V = .map es ∧ ∀ W ∈ es, HasK .str W.2
  | .map _ e, V => V = .nil ∨ ∃ es, V = .map es ∧ ∀ W ∈ es, HasTy e W.2
  | .struct _ fs, V => ∃ Ws, V = .struct Ws ∧ HasTyF fs Ws
  | .ptr e, V => V = .nil ∨ ∃ W, V = .ptr W ∧ HasTy e W
/-- Values of the fields of a struct. -/
def HasTyF : List (Bytes × Nat × Ty) → List Val → Prop
  | [], Ws => Ws = []
  | (_, _, t) :: fs, Ws => ∃ W Ws', Ws = W :: Ws' ∧ HasTy t W ∧ HasTyF fs Ws'
end

theorem holdsS_hasK {k : SKind} {c : Option Cell} {V : Val} (h : HoldsS k c V) : HasK k V := by
  rcases h with ⟨-, rfl⟩ | h
  · cases k <;> exact ⟨_, rfl⟩
  · cases k <;> obtain ⟨b, -, rfl⟩ := h <;> exact ⟨_, rfl⟩

theorem mem_get {α : Type} {l : List α} {a : α} (h : a ∈ l) : ∃ i : Nat, l[i]? = some a := by
  obtain ⟨i, hi, rfl⟩ := List.getElem_of_mem h
  exact ⟨i, List.getElem?_eq_getElem hi⟩

theorem entries_all {n : Nat} {P : Block → Nat → Val → Prop} {Q : Val → Prop} (h : ∀ b off V, P b off V → Q V) :
    ∀ {es : List (Key × Block)} {Vs : List (Key × Val)}, HoldsEntries n P es Vs → ∀ W ∈ Vs, Q W.2
  | [], [], _, W, hW => by cases hW
  | [], _ :: _, hh, _, _ => hh.elim
  | _ :: _, [], hh, _, _ => hh.elim
  | e :: es, W :: Ws, hh, W', hW => by
    rcases List.mem_cons.1 hW with rfl | hW
    · exact h _ _ _ hh.2.2.1
    · exact entries_all h hh.2.2.2 W' hW

mutual
/-- A value held in memory has the type. -/
theorem holds_typed {x : Ext} : ∀ (ty : Ty) {b : Block} {off : Nat} {V : Val}, Holds x ty b off V → HasTy ty V
  | .any, b, off, V, h => by
    rcases h.2 with ⟨-, rfl⟩ | ⟨a, -, rfl⟩ <;> exact ⟨_, rfl⟩
  | .number, b, off, V, h => holdsS_hasK (k := .str) h.2
  | .scalar k, b, off, V, h => holdsS_hasK h.2
  | .quoted k, b, off, V, h => holdsS_hasK h.2
  | .jsonU rt n i, b, off, V, h => ⟨_, h.2, by have := h.1; simp; omega⟩
  | .textU rt n i, b, off, V, h => ⟨_, h.2, by have := h.1; simp; omega⟩
  | .array0, b, off, V, h => h.2
  | .emptyStruct, b, off, V, h => h.2
  | .array n e, b, off, V, h => by
    obtain ⟨-, es, rfl, hl, he⟩ := h
    refine ⟨es, rfl, hl, fun W hW => ?_⟩
    obtain ⟨i, hi⟩ := mem_get hW
    exact holds_typed e (he i W hi)
  | .slice e, b, off, V, h => by
    rcases h.2 with ⟨-, rfl⟩ | ⟨a, es, sp, -, rfl, -, he⟩
    · exact .inl rfl
    · refine .inr ⟨es, sp, rfl, fun W hW => ?_⟩
      obtain ⟨i, hi⟩ := mem_get hW
      exact holds_typed e (he i W hi)
  | .sliceOf k, b, off, V, h => by
    rcases h.2 with ⟨-, rfl⟩ | ⟨a, es, sp, -, rfl, -, he⟩
    · exact .inl rfl
    · refine .inr ⟨es, sp, rfl, fun W hW => ?_⟩
      obtain ⟨i, hi⟩ := mem_get hW
      exact holdsS_hasK (he i W hi).2
  | .sliceES, b, off, V, h => by
    rcases h.2 with ⟨-, rfl⟩ | ⟨a, es, sp, -, rfl, -, he⟩
    · exact .inl rfl
    · refine .inr ⟨es, sp, rfl, fun W hW => ?_⟩
      obtain ⟨i, hi⟩ := mem_get hW
      exact he i W hi
  | .mapSS, b, off, V, h => by
    rcases h.2 with ⟨-, rfl⟩ | ⟨es, Vs, -, rfl, he⟩
    · exact .inl rfl
    · exact .inr ⟨Vs, rfl, entries_all (Q := HasK .str) (fun b off V h => holdsS_hasK h.2) he⟩
  | .map k e, b, off, V, h => by
    rcases h.2 with ⟨-, rfl⟩ | ⟨es, Vs, -, rfl, he⟩
    · exact .inl rfl
    · exact .inr ⟨Vs, rfl, entries_all (Q := HasTy e) (fun b off V h => holds_typed e h) he⟩
  | .struct n fs, b, off, V, h => by
    obtain ⟨-, Ws, rfl, hW⟩ := h
    exact ⟨Ws, rfl, holdsF_typed fs hW⟩
  | .ptr e, b, off, V, h => by
    rcases h.2 with ⟨-, rfl⟩ | ⟨blk, W, -, rfl, -, hW⟩
    · exact .inl rfl
    · exact .inr ⟨W, rfl, holds_typed e hW⟩
theorem holdsF_typed {x : Ext} : ∀ (fs : List (Bytes × Nat × Ty)) {b : Block} {off : Nat} {Ws : List Val}, HoldsF x fs b off Ws → HasTyF fs Ws
  | [], b, off, Ws, h => h
  | (_, _, t) :: fs, b, off, Ws, h => by
    obtain ⟨W, Ws', rfl, h1, h2⟩ := h
    exact ⟨W, Ws', rfl, holds_typed t h1, holdsF_typed fs h2⟩
end

theorem zeroS_hasK (k : SKind) : HasK k (zeroS k) := by cases k <;> exact ⟨_, rfl⟩

mutual
theorem zero_typed {x : Ext} : ∀ (ty : Ty), HasTy ty (zeroV x ty)
  | .any | .number => ⟨_, rfl⟩
  | .scalar k | .quoted k => zeroS_hasK k
  | .jsonU _ n _ | .textU _ n _ => ⟨_, rfl, by simp [zeros]⟩
  | .array0 => rfl
  | .emptyStruct => rfl
  | .array n e => ⟨_, rfl, by simp, fun W hW => by rw [List.eq_of_mem_replicate hW]; exact zero_typed e⟩
  | .slice _ | .sliceOf _ | .sliceES | .mapSS | .map _ _ | .ptr _ => .inl rfl
  | .struct _ fs => ⟨_, rfl, zeroF_typed fs⟩
theorem zeroF_typed {x : Ext} : ∀ (fs : List (Bytes × Nat × Ty)), HasTyF fs (zeroF x fs)
  | [] => rfl
  | (_, _, t) :: fs => ⟨_, _, rfl, zero_typed t, zeroF_typed fs⟩
end

/-- The outcome is not a crash and its value satisfies `P`. -/
def Safe {α : Type} (P : α → Prop) : R α → Prop
  | .ok a => P a
  | .err _ _ a => P a
  | .crash => False
  | .unsup => True

theorem Safe.map {α β : Type} {P : α → Prop} {Q : β → Prop} {f : α → β} {r : R α} (h : Safe P r) (hf : ∀ a, P a → Q (f a)) : Safe Q (r.map f) := by
  cases r with
  | ok a => exact hf _ h
  | err i e a => exact hf _ h
  | crash => exact h
  | unsup => trivial

/-- An action on a value that is not an unmarshaler. -/
def Good (P : Val → Prop) : Act → Prop
  | .store _ c => P (cellV c)
  | .text _ | .crash => False
  | _ => True

theorem actV_safe {P : Val → Prop} {idx : Nat} {z V : Val} {call : Option (Block → Bytes → Block × Option Nat)} {a : Act} (h : Good P a) (hz : P z) (hV : P V) : Safe P (actV idx z call V a) := by
  cases a <;> simp only [actV, Safe, Good] at * <;> first | assumption | exact h.elim

/-- Integer parsers only fail on empty texts. -/
theorem parseInt_some (is64 : Bool) (k : IKind) {s : Bytes} (h : s ≠ []) : ∃ r, parseInt is64 k s = some r := by
  obtain ⟨c, s, rfl⟩ := List.exists_cons_of_ne_nil h
  have h8 : ∃ r, Atoi.I8 (c :: s) = some r := by simp only [Atoi.I8]; split <;> exact ⟨_, rfl⟩
  have h16 : ∃ r, Atoi.I16 (c :: s) = some r := by simp only [Atoi.I16]; split <;> exact ⟨_, rfl⟩
  have h32 : ∃ r, Atoi.I32 (c :: s) = some r := by simp only [Atoi.I32]; split <;> exact ⟨_, rfl⟩
  have h64 : ∃ r, Atoi.I64 (c :: s) = some r := by simp only [Atoi.I64]; split <;> exact ⟨_, rfl⟩
  obtain ⟨r8, h8⟩ := h8
  obtain ⟨r16, h16⟩ := h16
  obtain ⟨r32, h32⟩ := h32
  obtain ⟨r64, h64⟩ := h64
  cases k <;> cases is64 <;> simp [parseInt, h8, h16, h32, h64]

theorem storeInt_good {P : Val → Prop} (hP : ∀ i, P (.int i)) (x : Ext) (k : IKind) {s : Bytes} (h : s ≠ []) (e : Err) : Good P (storeInt x k s e) := by
  obtain ⟨⟨i, b⟩, hr⟩ := parseInt_some x.is64 k h
  cases b <;> simp only [storeInt, hr, Good, cellV]
  exact hP i

theorem storeFlt_good {P : Val → Prop} (hP : ∀ i, P (.flt i)) (n : Nat) (r : Except Nat Flt) : Good P (storeFlt n r) := by
  cases r <;> simp only [storeFlt, Good, cellV]
  exact hP _

theorem quotedInt_some (x : Ext) (k : IKind) {s : Bytes} (h : s ≠ []) : ∃ r, quotedInt x k s = some r := by
  unfold quotedInt
  cases hr : JsonNum.readNumber s with
  | none => exact absurd ((Props.C06_scan_panics_iff s).1 hr) h
  | some p =>
    obtain ⟨rest, rc⟩ := p
    simp only []
    split
    · exact ⟨_, rfl⟩
    · split
      · exact ⟨_, rfl⟩
      · obtain ⟨⟨i, b⟩, hp⟩ := parseInt_some x.is64 k h
        cases b <;> simp [hp]

theorem unescStr_some (x : Ext) {s out : Bytes} (h : Denotes s out) : ∃ r, x.unescStr s = some r := by
  simp [Ext.unescStr, Props.C09_unescape _ _ h]

/-- Number literals are not empty. -/
theorem number_ne {s : Bytes} (h : IsNumber s) : s ≠ [] := by
  rintro rfl
  obtain ⟨rc, h, -⟩ := Props.C05_scan_number [] h
  rw [(Props.C06_scan_panics_iff []).2 rfl] at h
  cases h

theorem onInteger_good {P : Val → Prop} {x : Ext} {ty : Ty} (hP : P = HasTy ty) {s : Bytes} (h : s ≠ []) : Good P (onInteger x ty.etype s) := by
  subst hP
  obtain ⟨c, s, rfl⟩ := List.exists_cons_of_ne_nil h
  cases ty <;> simp only [Ty.etype, onInteger] <;> try trivial
  · cases x.parseFloat64 (c :: s) <;> simp [Good, HasTy, cellV]
  · exact ⟨_, rfl⟩
  · rename_i k
    cases k <;> simp only [] <;> try trivial
    · split
      · split
        · trivial
        · exact storeInt_good (fun i => ⟨i, rfl⟩) _ _ h _
      · exact storeInt_good (fun i => ⟨i, rfl⟩) _ _ h _
    · exact storeFlt_good (fun i => ⟨i, rfl⟩) _ _

theorem onNumber_good {x : Ext} {ty : Ty} {s : Bytes} : Good (HasTy ty) (onNumber x ty.etype s) := by
  cases ty <;> simp only [Ty.etype, onNumber] <;> try trivial
  · cases x.parseFloat64 s <;> simp [Good, HasTy, cellV]
  · exact ⟨_, rfl⟩
  · rename_i k
    cases k <;> simp only [] <;> try trivial
    exact storeFlt_good (fun i => ⟨i, rfl⟩) _ _

theorem onString_good {x : Ext} {ty : Ty} (ht : ∀ a b c, ty ≠ .textU a b c) {s out : Bytes} (hd : Denotes s out) (hq : ty.noQuotedNum = true ∨ s ≠ []) : Good (HasTy ty) (onString x ty.etype s) := by
  obtain ⟨u, hu⟩ := unescStr_some x hd
  cases ty <;> simp only [Ty.etype, onString] <;> try trivial
  · simp [hu, Good, HasTy, cellV]
  · have hs : s ≠ [] := by simpa [Ty.noQuotedNum] using hq
    cases hr : JsonNum.readNumber s with
    | none => exact absurd ((Props.C06_scan_panics_iff s).1 hr) hs
    | some p =>
      simp only []
      split
      · trivial
      · exact ⟨_, rfl⟩
  · rename_i k
    cases k <;> simp only [hu] <;> try trivial
    exact ⟨_, rfl⟩
  · rename_i k
    cases k with
    | bool =>
      simp only []
      split
      · exact ⟨_, rfl⟩
      · split
        · exact ⟨_, rfl⟩
        · trivial
    | str =>
      simp only []
      split
      · trivial
      · split
        · trivial
        · exact ⟨_, rfl⟩
    | int k =>
      have hs : s ≠ [] := by simpa [Ty.noQuotedNum] using hq
      obtain ⟨r, hr⟩ := quotedInt_some x k hs
      cases r <;> simp [hr, Good, HasTy, cellV, HasK]
    | flt k =>
      have hs : s ≠ [] := by simpa [Ty.noQuotedNum] using hq
      cases hr : JsonNum.readNumber s with
      | none => exact absurd ((Props.C06_scan_panics_iff s).1 hr) hs
      | some p =>
        simp only []
        split
        · trivial
        · exact storeFlt_good (fun i => ⟨i, rfl⟩) _ _
  · exact absurd rfl (ht _ _ _)

/-- The side condition on quoted numbers, for the text of a string. -/
theorem inner_ne {src : Bytes} {i e : Nat} (hw : WfStr src i e) (h : i + 2 < e) : inner src i e ≠ [] := by
  have := hw.2.1
  intro hc
  have := congrArg List.length hc
  simp [inner, text] at this
  omega

theorem leaf_good {x : Ext} {src : Bytes} {ty : Ty} (ht : ∀ a b c, ty ≠ .textU a b c) {v : JVal} (hw : Wf src v) (hq : ty.noQuotedNum = true ∨ noEmptyStr v = true) :
    Good (HasTy ty) (leaf x src ty.etype v) := by
  cases v with
  | null i e => cases ty <;> trivial
  | bool b i e =>
    cases ty <;> simp only [leaf, Ty.etype, onBool] <;> try trivial
    · exact ⟨_, rfl⟩
    · rename_i k; cases k <;> simp only [] <;> try trivial
      exact ⟨_, rfl⟩
  | num isInt i e =>
    obtain ⟨h1, h2, h3, h4⟩ := hw
    cases isInt <;> simp only [leaf, Doc.slice_text h1 h2]
    · exact onNumber_good
    · exact onInteger_good rfl (number_ne h3)
  | str i e =>
    simp only [leaf, Doc.slice_inner hw]
    obtain ⟨out, hd⟩ := hw.2.2
    refine onString_good ht hd (hq.imp id fun h => inner_ne hw ?_)
    simpa [noEmptyStr] using h
  | arr i es k => trivial
  | obj i ms k => trivial

theorem leafV_safe {x : Ext} {src : Bytes} {ty : Ty} (ht : ∀ a b c, ty ≠ .textU a b c) {v : JVal} (hw : Wf src v) (hq : ty.noQuotedNum = true ∨ noEmptyStr v = true) {V : Val} (hV : HasTy ty V) :
    Safe (HasTy ty) (leafV x src ty v V) := actV_safe (leaf_good ht hw hq) (zero_typed ty) hV

theorem elemsV_safe {P : Val → Prop} {f : JVal → Val → R Val} : ∀ (vs : List JVal) (Ws : List Val), (∀ v ∈ vs, ∀ W, P W → Safe P (f v W)) → (∀ W ∈ Ws, P W) →
    Safe (fun Ws' => Ws'.length = Ws.length ∧ ∀ W ∈ Ws', P W) (elemsV f vs Ws)
  | [], Ws, _, h => by cases Ws <;> exact ⟨rfl, h⟩
  | v :: vs, [], _, h => ⟨rfl, h⟩
  | v :: vs, W :: Ws, hf, h => by
    have h1 := hf v (List.mem_cons_self ..) W (h W (List.mem_cons_self ..))
    have h2 : ∀ W' ∈ Ws, P W' := fun W' hW => h W' (List.mem_cons_of_mem _ hW)
    simp only [elemsV]
    cases hr : f v W with
    | ok W' =>
      rw [hr] at h1
      refine (elemsV_safe vs Ws (fun v hv => hf v (List.mem_cons_of_mem _ hv)) h2).map ?_
      rintro Ws' ⟨hl, hW⟩
      refine ⟨by simp [hl], fun W'' hm => ?_⟩
      rcases List.mem_cons.1 hm with rfl | hm
      · exact h1
      · exact hW _ hm
    | err i e W' =>
      rw [hr] at h1
      refine ⟨by simp, fun W'' hm => ?_⟩
      rcases List.mem_cons.1 hm with rfl | hm
      · exact h1
      · exact h2 _ hm
    | crash => rw [hr] at h1; exact h1
    | unsup => trivial

/-- A slice value with elements that satisfy `P`. -/
def SliceP (P : Val → Prop) (V : Val) : Prop := V = .nil ∨ ∃ es sp, V = .slice es sp ∧ ∀ W ∈ es ++ sp, P W

theorem sliceParts_P {P : Val → Prop} {V : Val} (h : SliceP P V) : ∀ W ∈ (sliceParts V).1 ++ (sliceParts V).2, P W := by
  rcases h with rfl | ⟨es, sp, rfl, h⟩
  · intro W hW; cases hW
  · exact h

theorem prepSlice_P {P : Val → Prop} {z V : Val} {c : Bool} {n : Nat} (h : SliceP P V) (hz : P z) : ∀ W ∈ (prepSlice z c n V).1 ++ (prepSlice z c n V).2, P W := by
  have hp := sliceParts_P h
  unfold prepSlice
  generalize sliceParts V = q at hp
  obtain ⟨es, sp⟩ := q
  simp only [] at hp ⊢
  split
  · split
    · intro W hW
      simp only [List.append_nil] at hW
      rcases List.mem_append.1 hW with hW | hW
      · exact hp W (List.mem_append_left _ hW)
      · rw [List.eq_of_mem_replicate hW]; exact hz
    · intro W hW
      simp only [List.append_nil] at hW
      rw [List.eq_of_mem_replicate hW]; exact hz
  · intro W hW
    rw [List.take_append_drop] at hW
    exact hp W hW

theorem sliceV_safe {P : Val → Prop} {f : JVal → Val → R Val} {z V : Val} {c : Bool} {vs : List JVal} (hf : ∀ v ∈ vs, ∀ W, P W → Safe P (f v W)) (h : SliceP P V) (hz : P z) :
    Safe (SliceP P) (sliceV f z c vs V) := by
  unfold sliceV
  split
  · exact .inr ⟨[], [], rfl, fun W hW => by cases hW⟩
  · have hp := prepSlice_P (c := c) (n := vs.length) h hz
    generalize prepSlice z c vs.length V = q at hp
    obtain ⟨base, sp⟩ := q
    simp only [] at hp ⊢
    refine (elemsV_safe vs base hf fun W hW => hp W (List.mem_append_left _ hW)).map ?_
    rintro es ⟨-, he⟩
    refine .inr ⟨es, sp, rfl, fun W hW => ?_⟩
    rcases List.mem_append.1 hW with hW | hW
    · exact he W hW
    · exact hp W (List.mem_append_right _ hW)

theorem sliceOfV_safe {P : Val → Prop} {f : JVal → Val → R Val} {z V : Val} {vs : List JVal} (hf : ∀ v ∈ vs, ∀ W, P W → Safe P (f v W)) (h : SliceP P V) (hz : P z) :
    Safe (SliceP P) (sliceOfV f z vs V) := by
  unfold sliceOfV
  split
  · exact .inr ⟨[], [], rfl, fun W hW => by cases hW⟩
  · have hp := sliceParts_P h
    generalize sliceParts V = q at hp
    obtain ⟨es, sp⟩ := q
    simp only [] at hp ⊢
    split
    · have := elemsV_safe vs (List.replicate vs.length z) hf fun W hW => by rw [List.eq_of_mem_replicate hW]; exact hz
      cases hr : elemsV f vs (List.replicate vs.length z) with
      | ok es' => rw [hr] at this; exact .inr ⟨es', [], rfl, by simpa using this.2⟩
      | err i e es' => exact h
      | crash => rw [hr] at this; exact this
      | unsup => trivial
    · have := elemsV_safe vs ((es ++ sp).take vs.length) hf fun W hW => hp W (List.mem_of_mem_take hW)
      cases hr : elemsV f vs ((es ++ sp).take vs.length) with
      | ok es' =>
        rw [hr] at this
        refine .inr ⟨es', _, rfl, fun W hW => ?_⟩
        rcases List.mem_append.1 hW with hW | hW
        · exact this.2 W hW
        · exact hp W (List.mem_of_mem_drop hW)
      | err i e es' =>
        rw [hr] at this
        refine .inr ⟨_, _, rfl, fun W hW => ?_⟩
        rw [List.take_append_drop] at hW
        rcases List.mem_append.1 hW with hW | hW
        · exact this.2 W hW
        · exact hp W (List.mem_of_mem_drop hW)
      | crash => rw [hr] at this; exact this
      | unsup => trivial

theorem lookupV_P {P : Val → Prop} {k : Key} {z : Val} (hz : P z) : ∀ {m : List (Key × Val)}, (∀ e ∈ m, P e.2) → P ((lookupV k m).getD z)
  | [], _ => hz
  | e :: m, h => by
    simp only [lookupV]
    split
    · exact h e (List.mem_cons_self ..)
    · exact lookupV_P hz fun e' he => h e' (List.mem_cons_of_mem _ he)

theorem assignV_P {P : Val → Prop} {k : Key} {W : Val} (hW : P W) : ∀ {m : List (Key × Val)}, (∀ e ∈ m, P e.2) → ∀ e ∈ assignV k W m, P e.2
  | [], _, e, he => by
    simp only [assignV, List.mem_singleton] at he
    subst he; exact hW
  | e :: m, h, e', he => by
    simp only [assignV] at he
    split at he
    · rcases List.mem_cons.1 he with rfl | he
      · exact hW
      · exact h _ (List.mem_cons_of_mem _ he)
    · rcases List.mem_cons.1 he with rfl | he
      · exact h _ (List.mem_cons_self ..)
      · exact assignV_P hW (fun e'' h'' => h e'' (List.mem_cons_of_mem _ h'')) _ he

theorem mapV_safe {P : Val → Prop} {x : Ext} {src : Bytes} {f : JVal → Val → R Val} {k : KeyTy} {z : Val} {fresh : Bool} (hz : P z) :
    ∀ (ms : List ((Nat × Nat) × JVal)) (m : List (Key × Val)), (∀ a ∈ ms, ∀ W, P W → Safe P (f a.2 W)) →
      (∀ a ∈ ms, ∃ r, (Model.slice src (a.1.1 + 1) (a.1.2 - 1)).bind (fun key => k.key x key) = some r) → (∀ e ∈ m, P e.2) →
      Safe (fun m' => ∀ e ∈ m', P e.2) (mapV x src f k z fresh ms m)
  | [], m, _, _, h => h
  | ((i, e), v) :: ms, m, hf, hk, h => by
    obtain ⟨r, hr⟩ := hk _ (List.mem_cons_self ..)
    have ho : P (if fresh then z else (lookupV (match r with | .ok k' => k' | .error _ => .int 0) m).getD z) := by
      cases fresh
      · exact lookupV_P hz h
      · exact hz
    simp only [mapV, hr]
    cases r with
    | error er => exact h
    | ok k' =>
      simp only [] at ho ⊢
      have h1 := hf _ (List.mem_cons_self ..) _ ho
      simp only [] at h1
      split <;> rename_i hr' <;> rw [hr'] at h1
      · exact mapV_safe hz ms _ (fun a ha => hf a (List.mem_cons_of_mem _ ha)) (fun a ha => hk a (List.mem_cons_of_mem _ ha)) (assignV_P h1 h)
      · exact assignV_P h1 h
      · exact h1
      · trivial

theorem wfM_mem {src : Bytes} : ∀ {ms : List ((Nat × Nat) × JVal)}, WfM src ms → ∀ m ∈ ms, WfStr src m.1.1 m.1.2 ∧ Wf src m.2
  | [], _, m, hm => by cases hm
  | m :: ms, h, m', hm => by
    rcases List.mem_cons.1 hm with rfl | hm
    · exact ⟨h.1, h.2.1⟩
    · exact wfM_mem h.2.2 m' hm

theorem wfL_mem {src : Bytes} : ∀ {vs : List JVal}, WfL src vs → ∀ v ∈ vs, Wf src v
  | [], _, m, hm => by cases hm
  | v :: vs, h, m', hm => by
    rcases List.mem_cons.1 hm with rfl | hm
    · exact h.1
    · exact wfL_mem h.2 m' hm

theorem noEmptyL_mem : ∀ {vs : List JVal}, noEmptyStrL vs = true → ∀ v ∈ vs, noEmptyStr v = true
  | [], _, m, hm => by cases hm
  | v :: vs, h, m', hm => by
    simp only [noEmptyStrL, Bool.and_eq_true] at h
    rcases List.mem_cons.1 hm with rfl | hm
    · exact h.1
    · exact noEmptyL_mem h.2 m' hm

theorem noEmptyM_mem : ∀ {ms : List ((Nat × Nat) × JVal)}, noEmptyStrM ms = true → ∀ m ∈ ms, m.1.1 + 2 < m.1.2 ∧ noEmptyStr m.2 = true
  | [], _, m, hm => by cases hm
  | v :: vs, h, m', hm => by
    simp only [noEmptyStrM, Bool.and_eq_true, decide_eq_true_eq] at h
    rcases List.mem_cons.1 hm with rfl | hm
    · exact h.1
    · exact noEmptyM_mem h.2 m' hm

theorem key_some {x : Ext} {src : Bytes} {k : KeyTy} {i e : Nat} (hw : WfStr src i e) (hc : ∀ rt, k ≠ .text rt false) (hk : k ≠ .other) (hq : (∀ j, k ≠ .int j) ∨ i + 2 < e) :
    ∃ r, (Model.slice src (i + 1) (e - 1)).bind (fun key => k.key x key) = some r := by
  obtain ⟨out, hd⟩ := hw.2.2
  rw [Doc.slice_inner hw, Option.bind_some]
  cases k with
  | str =>
    obtain ⟨u, hu⟩ := unescStr_some x hd
    simp [KeyTy.key, hu]
  | int j =>
    have : inner src i e ≠ [] := inner_ne hw (hq.resolve_left fun h => h j rfl)
    obtain ⟨r, hr⟩ := quotedInt_some x j this
    cases r <;> simp [KeyTy.key, hr]
  | text rt impl =>
    cases impl
    · exact absurd rfl (hc rt)
    · simp only [KeyTy.key, Props.C09_unescape _ _ hd]
      cases x.unmarshalKey rt out <;> simp
  | other => exact absurd rfl hk

theorem mapSSV_safe {x : Ext} {src : Bytes} : ∀ (ms : List ((Nat × Nat) × JVal)) (m : List (Key × Val)), WfM src ms → (∀ e ∈ m, HasK .str e.2) →
    ∃ r, mapSSV x src ms m = some r ∧ ∀ m', r = .ok m' → ∀ e ∈ m', HasK .str e.2
  | [], m, _, h => ⟨_, rfl, fun m' hm => by cases hm; exact h⟩
  | ((i, e), v) :: ms, m, hw, h => by
    obtain ⟨out, hd⟩ := hw.1.2.2
    obtain ⟨u, hu⟩ := unescStr_some x hd
    cases v with
    | str vi ve =>
      obtain ⟨out', hd'⟩ := hw.2.1.2.2
      obtain ⟨u', hu'⟩ := unescStr_some x hd'
      simp only [mapSSV, Doc.slice_inner hw.1, Doc.slice_inner hw.2.1, Option.bind_some, hu, hu']
      exact mapSSV_safe ms _ hw.2.2 (assignV_P (P := HasK .str) ⟨_, rfl⟩ h)
    | null vi ve =>
      simp only [mapSSV, Doc.slice_inner hw.1, Option.bind_some, hu]
      exact mapSSV_safe ms _ hw.2.2 (assignV_P (P := HasK .str) ⟨_, rfl⟩ h)
    | bool _ _ _ => exact ⟨_, rfl, fun m' hm => by cases hm⟩
    | num _ _ _ => exact ⟨_, rfl, fun m' hm => by cases hm⟩
    | arr _ _ _ => exact ⟨_, rfl, fun m' hm => by cases hm⟩
    | obj _ _ _ => exact ⟨_, rfl, fun m' hm => by cases hm⟩

mutual
theorem anyOf_some {x : Ext} {src : Bytes} : ∀ {v : JVal}, Wf src v → ∃ r, anyOf x src v = some r
  | .null _ _, _ | .bool _ _ _, _ => ⟨_, rfl⟩
  | .num b i e, h => by simp only [anyOf, Doc.slice_text h.1 h.2.1]; exact ⟨_, rfl⟩
  | .str i e, h => by
    obtain ⟨out, hd⟩ := h.2.2
    obtain ⟨u, hu⟩ := unescStr_some x hd
    simp only [anyOf, Doc.slice_inner h, Option.bind_some, hu]; exact ⟨_, rfl⟩
  | .arr i es k, h => by
    obtain ⟨r, hr⟩ := anyOfL_some (x := x) h.2.2.2.2
    simp only [anyOf, hr]; exact ⟨_, rfl⟩
  | .obj i ms k, h => by
    obtain ⟨r, hr⟩ := anyOfM_some (x := x) h.2.2.2.2 []
    simp only [anyOf, hr]; exact ⟨_, rfl⟩
theorem anyOfL_some {x : Ext} {src : Bytes} : ∀ {vs : List JVal}, WfL src vs → ∃ r, anyOfL x src vs = some r
  | [], _ => ⟨_, rfl⟩
  | v :: vs, h => by
    obtain ⟨r, hr⟩ := anyOf_some (x := x) h.1
    obtain ⟨r', hr'⟩ := anyOfL_some (x := x) h.2
    cases r <;> simp only [anyOfL, hr, hr'] <;> exact ⟨_, rfl⟩
theorem anyOfM_some {x : Ext} {src : Bytes} : ∀ {ms : List ((Nat × Nat) × JVal)}, WfM src ms → ∀ m, ∃ r, anyOfM x src m ms = some r
  | [], _, m => ⟨_, rfl⟩
  | ((i, e), v) :: ms, h, m => by
    obtain ⟨out, hd⟩ := h.1.2.2
    obtain ⟨u, hu⟩ := unescStr_some x hd
    obtain ⟨r, hr⟩ := anyOf_some (x := x) h.2.1
    simp only [anyOfM, Doc.slice_inner h.1, hr, hu]
    cases r with
    | error e => exact ⟨_, rfl⟩
    | ok a => exact anyOfM_some h.2.2 _
end

theorem hasTyF_len : ∀ {fs : List (Bytes × Nat × Ty)} {Ws : List Val}, HasTyF fs Ws → Ws.length = fs.length
  | [], Ws, h => by simp only [HasTyF] at h; subst h; rfl
  | (_, _, t) :: fs, Ws, h => by
    obtain ⟨W, Ws', rfl, -, h⟩ := h
    simp [hasTyF_len h]

theorem hasTyF_get : ∀ {fs : List (Bytes × Nat × Ty)} {Ws : List Val}, HasTyF fs Ws → ∀ {j : Nat} {f : Bytes × Nat × Ty}, fs[j]? = some f → ∃ W, Ws[j]? = some W ∧ HasTy f.2.2 W
  | [], Ws, h, j, f, hf => by simp at hf
  | (_, _, t) :: fs, Ws, h, j, f, hf => by
    obtain ⟨W, Ws', rfl, h1, h2⟩ := h
    cases j with
    | zero => simp only [List.getElem?_cons_zero, Option.some.injEq] at hf; subst hf; exact ⟨W, rfl, h1⟩
    | succ j => simp only [List.getElem?_cons_succ] at hf ⊢; exact hasTyF_get h2 hf

theorem hasTyF_set : ∀ {fs : List (Bytes × Nat × Ty)} {Ws : List Val}, HasTyF fs Ws → ∀ {j : Nat} {f : Bytes × Nat × Ty} {W : Val}, fs[j]? = some f → HasTy f.2.2 W → HasTyF fs (Ws.set j W)
  | [], Ws, h, j, f, W, hf, _ => by simp at hf
  | (_, _, t) :: fs, Ws, h, j, f, W', hf, hW => by
    obtain ⟨W, Ws', rfl, h1, h2⟩ := h
    cases j with
    | zero => simp only [List.getElem?_cons_zero, Option.some.injEq] at hf; subst hf; exact ⟨W', Ws', rfl, hW, h2⟩
    | succ j => simp only [List.getElem?_cons_succ] at hf; exact ⟨W, _, rfl, h1, hasTyF_set h2 hf hW⟩

theorem keyName_some {src : Bytes} {o : Options} {i e : Nat} (hw : WfStr src i e) : ∃ n, (Model.slice src (i + 1) (e - 1)).bind (keyName o) = some n := by
  obtain ⟨out, hd⟩ := hw.2.2
  rw [Doc.slice_inner hw, Option.bind_some]
  unfold keyName
  split
  · exact ⟨_, rfl⟩
  · exact ⟨_, Props.C09_unescape _ _ hd⟩

theorem structV_safe {x : Ext} {src : Bytes} {o : Options} {oo : Option Options} {fs : List (Bytes × Nat × Ty)} :
    ∀ (ms : List ((Nat × Nat) × JVal)) (Ws : List Val), WfM src ms →
      (∀ m ∈ ms, ∀ (j : Nat) f, fs[j]? = some f → ∀ W, HasTy f.2.2 W → Safe (HasTy f.2.2) (decV x src oo f.2.2 m.2 W)) → HasTyF fs Ws →
      Safe (HasTyF fs) (structV x src o (decVF x src oo fs) ms Ws)
  | [], Ws, _, _, h => h
  | ((i, e), v) :: ms, Ws, hw, hf, h => by
    obtain ⟨n, hn⟩ := keyName_some (o := o) hw.1
    have hn' : (Model.slice src (i + 1) (e - 1)).bind (keyName o) = some n := hn
    simp only [structV, hn', Val.decVF_names]
    cases hj : findField x o ((fs.map (·.1)).zipIdx) n with
    | none =>
      simp only []
      split
      · exact h
      · split
        · trivial
        · exact structV_safe ms Ws hw.2.2 (fun m hm => hf m (List.mem_cons_of_mem _ hm)) h
    | some j =>
      have hlt := Sim.findField_lt hj
      simp only [List.length_map] at hlt
      have hfj : fs[j]? = some fs[j] := List.getElem?_eq_getElem hlt
      obtain ⟨W, hW, hT⟩ := hasTyF_get h hfj
      have h1 := hf _ (List.mem_cons_self ..) j _ hfj W hT
      simp only [Val.decVF_get, hfj, Option.map_some, hW]
      simp only [] at h1
      split <;> rename_i hr <;> rw [hr] at h1
      · exact structV_safe ms _ hw.2.2 (fun m hm => hf m (List.mem_cons_of_mem _ hm)) (hasTyF_set h hfj h1)
      · exact hasTyF_set h hfj h1
      · exact h1
      · trivial

theorem callableF_get : ∀ {fs : List (Bytes × Nat × Ty)}, callableF fs = true → ∀ {j : Nat} {f : Bytes × Nat × Ty}, fs[j]? = some f → f.2.2.callable = true
  | [], h, j, f, hf => by simp at hf
  | (_, _, t) :: fs, h, j, f, hf => by
    simp only [callableF, Bool.and_eq_true] at h
    cases j with
    | zero => simp only [List.getElem?_cons_zero, Option.some.injEq] at hf; subst hf; exact h.1
    | succ j => simp only [List.getElem?_cons_succ] at hf; exact callableF_get h.2 hf

theorem noQuotedF_get : ∀ {fs : List (Bytes × Nat × Ty)}, noQuotedNumF fs = true → ∀ {j : Nat} {f : Bytes × Nat × Ty}, fs[j]? = some f → f.2.2.noQuotedNum = true
  | [], h, j, f, hf => by simp at hf
  | (_, _, t) :: fs, h, j, f, hf => by
    simp only [noQuotedNumF, Bool.and_eq_true] at h
    cases j with
    | zero => simp only [List.getElem?_cons_zero, Option.some.injEq] at hf; subst hf; exact h.1
    | succ j => simp only [List.getElem?_cons_succ] at hf; exact noQuotedF_get h.2 hf

theorem fit_length (n : Nat) (b : Block) : (fit n b).length = n := by simp [fit, zeros]

theorem elemAct_good {x : Ext} {src : Bytes} {k : SKind} {v : JVal} (hw : Wf src v) : Good (HasK k) (elemAct x src k v) := by
  cases v with
  | null i e => trivial
  | bool b i e => cases k <;> simp only [elemAct] <;> first | trivial | exact ⟨_, rfl⟩
  | num isInt i e =>
    obtain ⟨h1, h2, h3, h4⟩ := hw
    cases k with
    | bool => trivial
    | str => trivial
    | int k =>
      cases isInt <;> simp only [elemAct, Doc.slice_text h1 h2] <;> try trivial
      exact onInteger_good (ty := .scalar (.int k)) rfl (number_ne h3)
    | flt k =>
      simp only [elemAct, Doc.slice_text h1 h2]
      exact storeFlt_good (fun i => ⟨i, rfl⟩) _ _
  | str i e =>
    obtain ⟨out, hd⟩ := hw.2.2
    obtain ⟨u, hu⟩ := unescStr_some x hd
    cases k <;> simp only [elemAct, Doc.slice_inner hw, Option.bind_some, hu] <;> first | trivial | exact ⟨_, rfl⟩
  | arr i es k => trivial
  | obj i ms k => trivial

/-- The text of a value. -/
theorem slice_extent {src : Bytes} {v : JVal} (hw : Wf src v) : Model.slice src v.index v.stop = some (text src v.index v.stop) :=
  Doc.slice_text (by have := Doc.wf_extent hw; omega) (Doc.wf_extent hw).2

theorem innerOK_wf {src : Bytes} {v : JVal} (hw : Wf src v) : innerOK src v = true := by
  cases v <;> simp only [innerOK]
  rw [Doc.slice_inner hw]; rfl

/-- A value other than `null` into a pointer inside a destination. -/
theorem dec_ptr {x : Ext} {src : Bytes} {o : Option Options} {e : Ty} {v : JVal} (hn : ∀ i j, v ≠ .null i j) (V : Val) :
    decV x src o (.ptr e) v V = (decV x src o e v (pointee (zeroV x e) V)).map .ptr := by
  cases v <;> first | rfl | exact absurd rfl (hn _ _)

theorem pointee_typed {x : Ext} {e : Ty} {V : Val} (h : HasTy (.ptr e) V) : HasTy e (pointee (zeroV x e) V) := by
  rcases h with rfl | ⟨W, rfl, h⟩
  · exact zero_typed e
  · exact h

mutual
/-- Decoding a well-formed document into a well-typed value does not crash, and leaves a well-typed value. -/
theorem decV_safe {x : Ext} {src : Bytes} {o : Options} : ∀ (ty : Ty) {v : JVal} {V : Val}, HasTy ty V → Wf src v → ty.callable = true → (ty.noQuotedNum = true ∨ noEmptyStr v = true) →
    Safe (HasTy ty) (decV x src (some o) ty v V)
  | .jsonU rt n impl, v, V, hV, hw, hc, hq => by
    obtain ⟨b, rfl, hb⟩ := hV
    simp only [Ty.callable] at hc
    subst hc
    simp only [decV, jsonV, slice_extent hw, innerOK_wf hw]
    split <;> exact ⟨_, rfl, fit_length _ _⟩
  | .textU rt n impl, v, V, hV, hw, hc, hq => by
    obtain ⟨b, rfl, hb⟩ := hV
    simp only [Ty.callable] at hc
    subst hc
    cases v with
    | str i e =>
      obtain ⟨out, hd⟩ := hw.2.2
      simp only [decV, leaf, Doc.slice_inner hw, onString, Props.C09_unescape _ _ hd, actV, textCall]
      split
      · rename_i hr; simp only [Prod.mk.injEq] at hr; rw [← hr.1]; exact ⟨_, rfl, fit_length _ _⟩
      · rename_i hr; simp only [Prod.mk.injEq] at hr; rw [← hr.1]; exact ⟨_, rfl, fit_length _ _⟩
    | num isInt i e =>
      obtain ⟨h1, h2, h3, h4⟩ := hw
      cases isInt <;> simp only [decV, leaf, Doc.slice_text h1 h2] <;> exact ⟨_, rfl, hb⟩
    | null i e => exact ⟨_, rfl, hb⟩
    | bool b' i e => exact ⟨_, rfl, hb⟩
    | arr i es k => exact ⟨_, rfl, hb⟩
    | obj i ms k => exact ⟨_, rfl, hb⟩
  | .any, v, V, hV, hw, hc, hq => by
    have ha : Safe (HasTy .any) (anyV x src v V) := by
      obtain ⟨r, hr⟩ := anyOf_some (x := x) hw
      cases r <;> simp only [anyV, hr]
      · exact hV
      · exact ⟨_, rfl⟩
    have hl := leafV_safe (x := x) (ty := .any) (by simp) hw hq hV
    cases v <;> simp only [decV] <;> assumption
  | .array0, v, V, hV, hw, hc, hq => by
    have hl := leafV_safe (x := x) (ty := .array0) (by simp) hw hq hV
    cases v <;> simp only [decV] <;> assumption
  | .array n e, v, V, hV, hw, hc, hq => by
    have hl := leafV_safe (x := x) (ty := .array n e) (by simp) hw hq hV
    obtain ⟨es, rfl, hn, he⟩ := hV
    cases v with
    | arr i vs k =>
      simp only [decV]
      refine (elemsV_safe vs es (fun v hv W hW => decV_safe e hW (wfL_mem hw.2.2.2.2 v hv) hc (hq.imp (fun h => h) fun h => noEmptyL_mem h v hv)) he).map ?_
      rintro Ws ⟨h1, h2⟩
      exact ⟨Ws, rfl, h1.trans hn, h2⟩
    | _ => simp only [decV]; exact hl
  | .slice e, v, V, hV, hw, hc, hq => by
    have hl := leafV_safe (x := x) (ty := .slice e) (by simp) hw hq hV
    cases v with
    | arr i vs k =>
      simp only [decV]
      exact sliceV_safe (P := HasTy e) (fun v hv W hW => decV_safe e hW (wfL_mem hw.2.2.2.2 v hv) hc (hq.imp (fun h => h) fun h => noEmptyL_mem h v hv)) hV (zero_typed e)
    | _ => simp only [decV]; exact hl
  | .sliceOf k, v, V, hV, hw, hc, hq => by
    have hl := leafV_safe (x := x) (ty := .sliceOf k) (by simp) hw hq hV
    cases v with
    | arr i vs kk =>
      simp only [decV]
      exact sliceOfV_safe (P := HasK k) (fun v hv W hW => actV_safe (elemAct_good (wfL_mem hw.2.2.2.2 v hv)) (zeroS_hasK k) hW) hV (zeroS_hasK k)
    | _ => simp only [decV]; exact hl
  | .sliceES, v, V, hV, hw, hc, hq => by
    have hl := leafV_safe (x := x) (ty := .sliceES) (by simp) hw hq hV
    cases v with
    | arr i vs kk => exact .inr ⟨_, _, rfl, fun W hW => by simp only [List.append_nil] at hW; exact List.eq_of_mem_replicate hW⟩
    | _ => simp only [decV]; exact hl
  | .mapSS, v, V, hV, hw, hc, hq => by
    have hl := leafV_safe (x := x) (ty := .mapSS) (by simp) hw hq hV
    cases v with
    | obj i ms k =>
      obtain ⟨r, hr, hm⟩ := mapSSV_safe (x := x) ms [] hw.2.2.2.2 (fun e he => by cases he)
      cases r with
      | error e => simp only [decV, hr]; exact hV
      | ok es => simp only [decV, hr]; exact .inr ⟨es, rfl, hm es rfl⟩
    | _ => simp only [decV]; exact hl
  | .map k e, v, V, hV, hw, hc, hq => by
    have hl := leafV_safe (x := x) (ty := .map k e) (by simp) hw hq hV
    simp only [Ty.callable, Bool.and_eq_true] at hc
    cases v with
    | obj i ms kk =>
      simp only [decV]
      split
      · trivial
      · rename_i hk
        have hm : ∀ a ∈ mapParts V, HasTy e a.2 := by
          rcases hV with rfl | ⟨es, rfl, h⟩
          · intro a ha; cases ha
          · exact h
        refine (mapV_safe (P := HasTy e) (zero_typed e) ms _ (fun a ha W hW => decV_safe e hW (wfM_mem hw.2.2.2.2 a ha).2 hc.2 ?_) (fun a ha => key_some (wfM_mem hw.2.2.2.2 a ha).1 ?_ ?_ ?_) hm).map ?_
        · refine hq.imp (fun h => ?_) (fun h => (noEmptyM_mem h a ha).2)
          simp only [Ty.noQuotedNum, Bool.and_eq_true] at h; exact h.2
        · rintro rt rfl; simp at hc
        · rintro rfl; exact hk ⟨rfl, List.ne_nil_of_mem ha⟩
        · refine hq.imp (fun h j hj => ?_) (fun h => (noEmptyM_mem h a ha).1)
          subst hj; simp [Ty.noQuotedNum] at h
        · exact fun m h => .inr ⟨m, rfl, h⟩
    | _ => simp only [decV]; exact hl
  | .struct n fs, v, V, hV, hw, hc, hq => by
    have hl := leafV_safe (x := x) (ty := .struct n fs) (by simp) hw hq hV
    obtain ⟨Ws, rfl, hW⟩ := hV
    cases v with
    | obj i ms k =>
      simp only [decV]
      split
      · exact ⟨Ws, rfl, hW⟩
      · refine (structV_safe ms Ws hw.2.2.2.2 (fun m hm j f hf W hT => ?_) hW).map fun Ws' h => ⟨Ws', rfl, h⟩
        exact decVF_safe fs hf hT (wfM_mem hw.2.2.2.2 m hm).2 (callableF_get hc hf) (hq.imp (fun h => noQuotedF_get h hf) fun h => (noEmptyM_mem h m hm).2)
    | _ => simp only [decV]; exact hl
  | .emptyStruct, v, V, hV, hw, hc, hq => by
    have hl := leafV_safe (x := x) (ty := .emptyStruct) (by simp) hw hq hV
    cases v <;> simp only [decV] <;> first | assumption | trivial
  | .ptr e, v, V, hV, hw, hc, hq => by
    have hp := (decV_safe (x := x) (o := o) e (pointee_typed (x := x) hV) hw hc hq).map (Q := HasTy (.ptr e)) fun W h => .inr ⟨W, rfl, h⟩
    cases v <;> first | exact .inl rfl | exact hp
  | .number, v, V, hV, hw, hc, hq => leafV_safe (x := x) (ty := .number) (by simp) hw hq hV
  | .scalar k, v, V, hV, hw, hc, hq => leafV_safe (x := x) (ty := .scalar k) (by simp) hw hq hV
  | .quoted k, v, V, hV, hw, hc, hq => leafV_safe (x := x) (ty := .quoted k) (by simp) hw hq hV
theorem decVF_safe {x : Ext} {src : Bytes} {o : Options} : ∀ (fs : List (Bytes × Nat × Ty)) {j : Nat} {f : Bytes × Nat × Ty}, fs[j]? = some f → ∀ {v : JVal} {V : Val}, HasTy f.2.2 V → Wf src v →
    f.2.2.callable = true → (f.2.2.noQuotedNum = true ∨ noEmptyStr v = true) → Safe (HasTy f.2.2) (decV x src (some o) f.2.2 v V)
  | [], j, f, hf, v, V, hV, hw, hc, hq => by simp at hf
  | (_, _, t) :: fs, 0, f, hf, v, V, hV, hw, hc, hq => by
    simp only [List.getElem?_cons_zero, Option.some.injEq] at hf
    subst hf
    exact decV_safe t hV hw hc hq
  | _ :: fs, j + 1, f, hf, v, V, hV, hw, hc, hq => by
    simp only [List.getElem?_cons_succ] at hf
    exact decVF_safe fs hf hV hw hc hq
end

theorem tokOK_wf {src : Bytes} {v : JVal} (hw : Wf src v) : tokOK src v = true := by
  cases v <;> simp only [tokOK]
  · rw [Doc.slice_text hw.1 hw.2.1]; rfl
  · rw [Doc.slice_inner hw]; rfl

theorem decTopV_safe {x : Ext} {src : Bytes} {o : Options} : ∀ (ty : Ty) {v : JVal} {V : Val}, HasTy ty V → Wf src v → ty.callable = true → (ty.noQuotedNum = true ∨ noEmptyStr v = true) →
    Safe (HasTy ty) (decTopV x src (some o) ty v V)
  | .ptr e, v, V, hV, hw, hc, hq => by
    have hp : Safe (HasTy (.ptr e)) (if tokOK src v = false then R.crash else if e.size x = 0 then .unsup else (decTopV x src (some o) e v (zeroV x e)).map .ptr) := by
      rw [tokOK_wf hw]
      simp only [Bool.true_eq_false, if_false]
      split
      · trivial
      · exact (decTopV_safe e (zero_typed e) hw hc hq).map fun W h => .inr ⟨W, rfl, h⟩
    cases v <;> first | exact .inl rfl | exact hp
  | .emptyStruct, v, V, hV, hw, hc, hq => by
    have := decV_safe (x := x) (o := o) .emptyStruct hV hw hc hq
    cases v <;> first | exact hV | exact this
  | .any, v, V, hV, hw, hc, hq => decV_safe (o := o) _ hV hw hc hq
  | .number, v, V, hV, hw, hc, hq => decV_safe (o := o) _ hV hw hc hq
  | .scalar k, v, V, hV, hw, hc, hq => decV_safe (o := o) _ hV hw hc hq
  | .quoted k, v, V, hV, hw, hc, hq => decV_safe (o := o) _ hV hw hc hq
  | .jsonU _ _ _, v, V, hV, hw, hc, hq => decV_safe (o := o) _ hV hw hc hq
  | .textU _ _ _, v, V, hV, hw, hc, hq => decV_safe (o := o) _ hV hw hc hq
  | .array0, v, V, hV, hw, hc, hq => decV_safe (o := o) _ hV hw hc hq
  | .array _ _, v, V, hV, hw, hc, hq => decV_safe (o := o) _ hV hw hc hq
  | .slice _, v, V, hV, hw, hc, hq => decV_safe (o := o) _ hV hw hc hq
  | .sliceOf _, v, V, hV, hw, hc, hq => decV_safe (o := o) _ hV hw hc hq
  | .sliceES, v, V, hV, hw, hc, hq => decV_safe (o := o) _ hV hw hc hq
  | .mapSS, v, V, hV, hw, hc, hq => decV_safe (o := o) _ hV hw hc hq
  | .map _ _, v, V, hV, hw, hc, hq => decV_safe (o := o) _ hV hw hc hq
  | .struct _ _, v, V, hV, hw, hc, hq => decV_safe (o := o) _ hV hw hc hq

end Verif.Proof.Safe

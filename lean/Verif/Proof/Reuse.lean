import Verif.Spec.NoArrays
import Verif.Proof.Session
/-!
# Reuse of a decoder: types without arrays and recursion

Two runs of the machine on the same tokens, from frames that differ only in the offsets and lengths that earlier calls have left in the frames of slice elements. Those are overwritten before they are used, or used with a nil pointer.
-/
namespace Verif.Proof.Reuse
open Verif Verif.Model Verif.Big Verif.Spec Verif.Proof Verif.Proof.Sim Verif.Proof.Reads

/-- Frame `i` is for the elements of a slice. -/
def Elem (fr : List Frame) (i : Nat) : Prop := ∃ j g, i = j + 1 ∧ fr[j]? = some g ∧ g.type = .slice

/-- How frame `i` is linked. -/
def LinkOK (fr : List Frame) (i : Nat) (f : Frame) : Prop :=
  f.parent = none ∨ ∃ p g, f.parent = some p ∧ fr[p]? = some g ∧ (g.type = .struct ∨ g.type = .map ∨ g.type = .ptr ∨ (g.type = .slice ∧ i = p + 1))

/-- A frame of a table without arrays. -/
structure FlatAt (fr : List Frame) (i : Nat) (f : Frame) : Prop where
  noArr : f.type ≠ .array
  noRec : recurType f.type = false
  link : LinkOK fr i f
  fields : f.type = .struct → ∀ q ∈ f.fields, ¬ Elem fr q.2
  map : f.type = .map → ¬ Elem fr (i + 2)

/-- A table without arrays. -/
def Flat (fr : List Frame) : Prop := ∀ i f, fr[i]? = some f → FlatAt fr i f

theorem width_pos (ty : Ty) : 0 < ty.width := by cases ty <;> simp only [Ty.width] <;> omega

theorem not_elem {fr : List Frame} {i : Nat} {f : Frame} (hf : fr[i]? = some f) (ht : f.type ≠ .slice) : ¬ Elem fr (i + 1) := by
  rintro ⟨j, g, h1, h2, h3⟩
  obtain rfl : i = j := by omega
  rw [hf] at h2; cases h2
  exact ht h3

mutual
/-- The last frame of a type is not that of a slice with a frame for its elements. -/
theorem last_frame {x : Ext} {fr : List Frame} : ∀ (ty : Ty) {b : Nat}, Rep x fr ty b → ¬ Elem fr (b + ty.width)
  | .array n e, b, h => by
    obtain ⟨-, -, -, hr⟩ := h
    have := last_frame e hr
    simp only [Ty.width]; rwa [show b + (1 + e.width) = b + 1 + e.width by omega]
  | .slice e, b, h => by
    obtain ⟨-, -, hr⟩ := h
    have := last_frame e hr
    simp only [Ty.width]; rwa [show b + (1 + e.width) = b + 1 + e.width by omega]
  | .ptr e, b, h => by
    obtain ⟨-, -, hr⟩ := h
    have := last_frame e hr
    simp only [Ty.width]; rwa [show b + (1 + e.width) = b + 1 + e.width by omega]
  | .map k e, b, h => by
    obtain ⟨-, -, -, hr⟩ := h
    have := last_frame e hr
    simp only [Ty.width]; rwa [show b + (2 + e.width) = b + 2 + e.width by omega]
  | .struct n fs, b, h => by
    obtain ⟨f, hf, ht, -, hr⟩ := h
    have := last_fields fs hr (not_elem hf (by rw [ht]; exact nofun))
    simp only [Ty.width]; rwa [show b + (1 + widthF fs) = b + 1 + widthF fs by omega]
  | .any, b, h => by obtain ⟨f, hf, ht, -⟩ := h; exact not_elem hf (by rw [ht]; exact nofun)
  | .number, b, h => by obtain ⟨f, hf, ht, -⟩ := h; exact not_elem hf (by rw [ht]; exact nofun)
  | .scalar _, b, h => by obtain ⟨f, hf, ht, -⟩ := h; exact not_elem hf (by rw [ht]; exact nofun)
  | .quoted _, b, h => by obtain ⟨f, hf, ht, -⟩ := h; exact not_elem hf (by rw [ht]; exact nofun)
  | .jsonU _ _ _, b, h => by obtain ⟨f, hf, ht, -⟩ := h; exact not_elem hf (by rw [ht]; exact nofun)
  | .textU _ _ _, b, h => by obtain ⟨f, hf, ht, -⟩ := h; exact not_elem hf (by rw [ht]; exact nofun)
  | .array0, b, h => by obtain ⟨f, hf, ht, -⟩ := h; exact not_elem hf (by rw [ht]; exact nofun)
  | .sliceOf _, b, h => by obtain ⟨f, hf, ht, -⟩ := h; exact not_elem hf (by rw [ht]; exact nofun)
  | .sliceES, b, h => by obtain ⟨f, hf, ht, -⟩ := h; exact not_elem hf (by rw [ht]; exact nofun)
  | .mapSS, b, h => by obtain ⟨f, hf, ht, -⟩ := h; exact not_elem hf (by rw [ht]; exact nofun)
  | .emptyStruct, b, h => by obtain ⟨f, hf, ht, -⟩ := h; exact not_elem hf (by rw [ht]; exact nofun)
theorem last_fields {x : Ext} {fr : List Frame} : ∀ (fs : List (Bytes × Nat × Ty)) {b pos : Nat} {tbl : List (Bytes × Nat)}, RepFields x fr b fs pos tbl → ¬ Elem fr pos → ¬ Elem fr (pos + widthF fs)
  | [], b, pos, tbl, h, hp => hp
  | (n, o, t) :: fs, b, pos, tbl, h, hp => by
    obtain ⟨tbl', -, -, hr, hrf⟩ := h
    have := last_fields fs hrf (last_frame t hr)
    simp only [widthF]; rwa [show pos + (t.width + widthF fs) = pos + t.width + widthF fs by omega]
end

theorem fields_free {x : Ext} {fr : List Frame} {b : Nat} : ∀ (fs : List (Bytes × Nat × Ty)) {pos : Nat} {tbl : List (Bytes × Nat)}, RepFields x fr b fs pos tbl → ¬ Elem fr pos → ∀ q ∈ tbl, ¬ Elem fr q.2
  | [], pos, tbl, h, hp => by cases h; exact nofun
  | (n, o, t) :: fs, pos, tbl, h, hp => by
    obtain ⟨tbl', rfl, -, hr, hrf⟩ := h
    intro q hq
    rcases List.mem_cons.1 hq with rfl | hq
    · exact hp
    · exact fields_free fs hrf (last_frame t hr) q hq

/-- A frame without frames behind it. -/
theorem flat_leaf {fr : List Frame} {i : Nat} {f : Frame} (hl : LinkOK fr i f) (ht : plainType f.type = true) (hs : f.type ≠ .struct) (hm : f.type ≠ .map) : FlatAt fr i f := by
  refine ⟨?_, ?_, hl, fun h => absurd h hs, fun h => absurd h hm⟩
  · intro h; rw [h] at ht; cases ht
  · cases h : f.type <;> rw [h] at ht <;> first | rfl | cases ht

/-- All frames in a range are right. -/
def Range (fr : List Frame) (a b : Nat) : Prop := ∀ i f, a ≤ i → i < b → fr[i]? = some f → FlatAt fr i f

theorem Range.one {fr : List Frame} {b : Nat} {f : Frame} (hf : fr[b]? = some f) (h : FlatAt fr b f) : Range fr b (b + 1) := by
  intro i g h1 h2 hg
  obtain rfl : i = b := by omega
  rw [hf] at hg; cases hg
  exact h

theorem Range.join {fr : List Frame} {a b c : Nat} (h : Range fr a b) (h' : Range fr b c) : Range fr a c := by
  intro i f h1 h2 hf
  by_cases hi : i < b
  · exact h i f h1 hi hf
  · exact h' i f (by omega) h2 hf

theorem linked_get {fr : List Frame} {b i : Nat} {P : Frame → Prop} {g : Frame} (h : Linked fr b i P) (hb : fr[b]? = some g)
    (hg : g.type = .struct ∨ g.type = .map ∨ g.type = .ptr ∨ (g.type = .slice ∧ i = b + 1)) : ∃ c, fr[i]? = some c ∧ LinkOK fr i c ∧ P c := by
  obtain ⟨c, h1, h2, h3⟩ := h
  exact ⟨c, h1, .inr ⟨b, g, h2, hb, hg⟩, h3⟩

theorem key_scalar {f : Frame} {k : KeyTy} (h : k.Rep f) : f.type ≠ .struct ∧ f.type ≠ .map := by
  cases k with
  | str => simp only [KeyTy.Rep] at h; rw [h]; exact ⟨nofun, nofun⟩
  | int k => simp only [KeyTy.Rep] at h; rw [h]; exact ⟨nofun, nofun⟩
  | text rt impl => simp only [KeyTy.Rep] at h; rw [h.1]; exact ⟨nofun, nofun⟩
  | other => exact h.2

mutual
theorem rep_flat {x : Ext} {fr : List Frame} : ∀ (ty : Ty) {b : Nat} {f : Frame}, Rep x fr ty b → ty.noArrays = true → fr[b]? = some f → LinkOK fr b f → Range fr b (b + ty.width)
  | .array n e, b, f, h, ha, hf, hl => by simp only [Ty.noArrays, Bool.false_eq_true] at ha
  | .slice e, b, f, h, ha, hf, hl => by
    obtain ⟨⟨f', hf', ht, -⟩, hk, hr⟩ := h
    rw [hf] at hf'; cases hf'
    obtain ⟨c, hc, hcl, -⟩ := linked_get hk hf (.inr (.inr (.inr ⟨ht, rfl⟩)))
    have h2 := rep_flat e hr (by simpa only [Ty.noArrays] using ha) hc hcl
    refine Range.join (b := b + 1) (.one hf ⟨by rw [ht]; exact nofun, by rw [ht]; rfl, hl, fun h => (by rw [ht] at h; cases h), fun h => (by rw [ht] at h; cases h)⟩) ?_
    simp only [Ty.width]; rwa [show b + (1 + e.width) = b + 1 + e.width by omega]
  | .ptr e, b, f, h, ha, hf, hl => by
    obtain ⟨⟨f', hf', ht, -⟩, hk, hr⟩ := h
    rw [hf] at hf'; cases hf'
    obtain ⟨c, hc, hcl, -⟩ := linked_get hk hf (.inr (.inr (.inl ht)))
    have h2 := rep_flat e hr (by simpa only [Ty.noArrays] using ha) hc hcl
    refine Range.join (b := b + 1) (.one hf ⟨by rw [ht]; exact nofun, by rw [ht]; rfl, hl, fun h => (by rw [ht] at h; cases h), fun h => (by rw [ht] at h; cases h)⟩) ?_
    simp only [Ty.width]; rwa [show b + (1 + e.width) = b + 1 + e.width by omega]
  | .map k e, b, f, h, ha, hf, hl => by
    obtain ⟨⟨f', hf', ht, -⟩, hkey, hk, hr⟩ := h
    rw [hf] at hf'; cases hf'
    obtain ⟨c, hc, hcl, -⟩ := linked_get hk hf (.inr (.inl ht))
    obtain ⟨g, hg, hgl, hgk⟩ := linked_get hkey hf (.inr (.inl ht))
    have h2 := rep_flat e hr (by simpa only [Ty.noArrays] using ha) hc hcl
    have hpl := key_plain hgk
    have hne : ¬ Elem fr (b + 1 + 1) := not_elem hg (fun h => by rw [h] at hpl; cases hpl)
    refine Range.join (b := b + 1) (.one hf ⟨by rw [ht]; exact nofun, by rw [ht]; rfl, hl, fun h => (by rw [ht] at h; cases h), fun _ => hne⟩) (Range.join (b := b + 2) (.one hg ?_) ?_)
    · exact flat_leaf hgl hpl (key_scalar hgk).1 (key_scalar hgk).2
    · simp only [Ty.width]; rwa [show b + (2 + e.width) = b + 2 + e.width by omega]
  | .struct n fs, b, f, h, ha, hf, hl => by
    obtain ⟨f', hf', ht, -, hr⟩ := h
    rw [hf] at hf'; cases hf'
    have hne : ¬ Elem fr (b + 1) := not_elem hf (by rw [ht]; exact nofun)
    have h2 := fields_flat fs hr (by simpa only [Ty.noArrays] using ha) hf ht
    refine Range.join (b := b + 1) (.one hf ⟨by rw [ht]; exact nofun, by rw [ht]; rfl, hl, fun _ => fields_free fs hr hne, fun h => (by rw [ht] at h; cases h)⟩) ?_
    simp only [Ty.width]; rwa [show b + (1 + widthF fs) = b + 1 + widthF fs by omega]
  | .any, b, f, h, ha, hf, hl => by obtain ⟨f', hf', ht, -⟩ := h; rw [hf] at hf'; cases hf'; exact .one hf (flat_leaf hl (by rw [ht]; rfl) (by rw [ht]; exact nofun) (by rw [ht]; exact nofun))
  | .number, b, f, h, ha, hf, hl => by obtain ⟨f', hf', ht, -⟩ := h; rw [hf] at hf'; cases hf'; exact .one hf (flat_leaf hl (by rw [ht]; rfl) (by rw [ht]; exact nofun) (by rw [ht]; exact nofun))
  | .scalar _, b, f, h, ha, hf, hl => by obtain ⟨f', hf', ht, -⟩ := h; rw [hf] at hf'; cases hf'; exact .one hf (flat_leaf hl (by rw [ht]; rfl) (by rw [ht]; exact nofun) (by rw [ht]; exact nofun))
  | .quoted _, b, f, h, ha, hf, hl => by obtain ⟨f', hf', ht, -⟩ := h; rw [hf] at hf'; cases hf'; exact .one hf (flat_leaf hl (by rw [ht]; rfl) (by rw [ht]; exact nofun) (by rw [ht]; exact nofun))
  | .jsonU _ _ _, b, f, h, ha, hf, hl => by obtain ⟨f', hf', ht, -⟩ := h; rw [hf] at hf'; cases hf'; exact .one hf (flat_leaf hl (by rw [ht]; rfl) (by rw [ht]; exact nofun) (by rw [ht]; exact nofun))
  | .textU _ _ _, b, f, h, ha, hf, hl => by obtain ⟨f', hf', ht, -⟩ := h; rw [hf] at hf'; cases hf'; exact .one hf (flat_leaf hl (by rw [ht]; rfl) (by rw [ht]; exact nofun) (by rw [ht]; exact nofun))
  | .array0, b, f, h, ha, hf, hl => by obtain ⟨f', hf', ht, -⟩ := h; rw [hf] at hf'; cases hf'; exact .one hf (flat_leaf hl (by rw [ht]; rfl) (by rw [ht]; exact nofun) (by rw [ht]; exact nofun))
  | .sliceOf _, b, f, h, ha, hf, hl => by obtain ⟨f', hf', ht, -⟩ := h; rw [hf] at hf'; cases hf'; exact .one hf (flat_leaf hl (by rw [ht]; rfl) (by rw [ht]; exact nofun) (by rw [ht]; exact nofun))
  | .sliceES, b, f, h, ha, hf, hl => by obtain ⟨f', hf', ht, -⟩ := h; rw [hf] at hf'; cases hf'; exact .one hf (flat_leaf hl (by rw [ht]; rfl) (by rw [ht]; exact nofun) (by rw [ht]; exact nofun))
  | .mapSS, b, f, h, ha, hf, hl => by obtain ⟨f', hf', ht, -⟩ := h; rw [hf] at hf'; cases hf'; exact .one hf (flat_leaf hl (by rw [ht]; rfl) (by rw [ht]; exact nofun) (by rw [ht]; exact nofun))
  | .emptyStruct, b, f, h, ha, hf, hl => by obtain ⟨f', hf', ht, -⟩ := h; rw [hf] at hf'; cases hf'; exact .one hf (flat_leaf hl (by rw [ht]; rfl) (by rw [ht]; exact nofun) (by rw [ht]; exact nofun))
theorem fields_flat {x : Ext} {fr : List Frame} : ∀ (fs : List (Bytes × Nat × Ty)) {b pos : Nat} {tbl : List (Bytes × Nat)} {f : Frame}, RepFields x fr b fs pos tbl → noArraysF fs = true → fr[b]? = some f →
    f.type = .struct → Range fr pos (pos + widthF fs)
  | [], b, pos, tbl, f, h, ha, hf, ht => fun i g h1 h2 _ => by simp only [widthF] at h2; omega
  | (n, o, t) :: fs, b, pos, tbl, f, h, ha, hf, ht => by
    obtain ⟨tbl', -, hk, hr, hrf⟩ := h
    simp only [noArraysF, Bool.and_eq_true] at ha
    obtain ⟨c, hc, hcl, -⟩ := linked_get hk hf (.inl ht)
    have h1 := rep_flat t hr ha.1 hc hcl
    have h2 := fields_flat fs hrf ha.2 hf ht
    simp only [widthF]
    rw [show pos + (t.width + widthF fs) = pos + t.width + widthF fs by omega]
    exact h1.join h2
end

/-! ## Two runs -/

/-- The mutable parts of the frames in two runs. -/
structure DRel (fr : List Frame) (d d' : Nat → Dyn) : Prop where
  dest : ∀ i, (d i).dest = (d' i).dest
  rs : ∀ i, (d i).rstack = [] ∧ (d' i).rstack = []
  off : ∀ i c, fr[i]? = some c → (d i).offset = (d' i).offset ∨ (Elem fr i ∧ (d i).dest = .nil)

/-- The states of two runs. -/
def SRel (fr : List Frame) (s s' : St) : Prop := ∃ d', s' = { s with dyn := d' } ∧ DRel fr s.dyn d' ∧ (s.pc = .onPtr → ∃ f, fr[s.si]? = some f ∧ f.type = .ptr)

/-- The outcomes of two runs. -/
def ORel (fr : List Frame) : Out → Out → Prop
  | .run s, .run s' => SRel fr s s'
  | .done s, .done s' => SRel fr s s'
  | .err i e s, .err i' e' s' => i = i' ∧ e = e' ∧ SRel fr s s'
  | .crash, .crash => True
  | _, _ => False

theorem DRel.p {fr : List Frame} {s : St} {d' : Nat → Dyn} (h : DRel fr s.dyn d') {f : Frame} (hf : fr[s.si]? = some f) : St.p { s with dyn := d' } = s.p := by
  simp only [St.p, ← h.dest]
  rcases h.off _ f hf with e | ⟨-, e⟩
  · rw [e]
  · rw [e]; rfl

theorem DRel.upd {fr : List Frame} {d d' : Nat → Dyn} (h : DRel fr d d') {i : Nat} {g : Dyn → Dyn} (h1 : (g (d i)).dest = (g (d' i)).dest) (h2 : ∀ y, (g y).rstack = y.rstack)
    (h3 : (g (d i)).offset = (g (d' i)).offset ∨ (Elem fr i ∧ (g (d i)).dest = .nil)) : DRel fr (upd d i g) (upd d' i g) := by
  refine ⟨fun j => ?_, fun j => ?_, fun j c hc => ?_⟩ <;> simp only [Model.upd] <;> split
  · exact h1
  · exact h.dest j
  · rw [h2, h2]; exact h.rs i
  · exact h.rs j
  · rename_i e; subst e; exact h3
  · exact h.off j c hc

/-- A new destination for a frame that is not for elements of a slice. -/
theorem DRel.setDest {fr : List Frame} {d d' : Nat → Dyn} (h : DRel fr d d') {i : Nat} {c : Frame} (hc : fr[i]? = some c) (he : ¬ Elem fr i) (p : Ptr) :
    DRel fr (Model.upd d i fun y => { y with dest := p }) (Model.upd d' i fun y => { y with dest := p }) := by
  refine h.upd rfl (fun _ => rfl) (.inl ?_)
  rcases h.off i c hc with e | ⟨e, -⟩
  · exact e
  · exact absurd e he

theorem DRel.setFields {fr : List Frame} {p : Ptr} : ∀ (l : List (Bytes × Nat)) {d d' : Nat → Dyn}, DRel fr d d' → (∀ q ∈ l, ¬ Elem fr q.2) → DRel fr (setFieldDests p l d) (setFieldDests p l d')
  | [], d, d', h, _ => h
  | q :: l, d, d', h, hl => by
    refine DRel.setFields l ?_ (fun r hr => hl r (List.mem_cons_of_mem _ hr))
    cases hq : fr[q.2]? with
    | some c => exact h.setDest hq (hl q List.mem_cons_self) p
    | none =>
      refine ⟨fun j => ?_, fun j => ?_, fun j c hc => ?_⟩ <;> simp only [Model.upd] <;> split
      · rfl
      · exact h.dest j
      · exact h.rs _
      · exact h.rs j
      · rename_i e; subst e; rw [hq] at hc; cases hc
      · exact h.off j c hc

theorem SRel.keep {fr : List Frame} {d' : Nat → Dyn} {s : St} (h : DRel fr s.dyn d') (hp : s.pc ≠ .onPtr) : SRel fr s { s with dyn := d' } := ⟨d', rfl, h, fun e => absurd e hp⟩

theorem bool_ptr (x : Ext) (ty : EType) (v : Bool) (h : onBool x ty v = .toPtr) : ty = .ptr := by
  unfold onBool at h
  split at h <;> first | rfl | cases h

theorem null_ptr (x : Ext) (ty : EType) (h : onNull x ty = .toPtr) : ty = .ptr := by
  unfold onNull at h
  split at h <;> first | rfl | cases h

theorem integer_ptr (x : Ext) (ty : EType) (tv : Bytes) (h : onInteger x ty tv = .toPtr) : ty = .ptr := by
  simp only [onInteger, storeInt, storeFlt] at h
  repeat' split at h
  all_goals first | rfl | cases h

theorem number_ptr (x : Ext) (ty : EType) (tv : Bytes) (h : onNumber x ty tv = .toPtr) : ty = .ptr := by
  simp only [onNumber, storeInt, storeFlt] at h
  repeat' split at h
  all_goals first | rfl | cases h

theorem string_ptr (x : Ext) (ty : EType) (tv : Bytes) (h : onString x ty tv = .toPtr) : ty = .ptr := by
  simp only [onString, storeInt, storeFlt] at h
  repeat' split at h
  all_goals first | rfl | cases h

section
variable {pr : Prog} {s : St} {d' : Nat → Dyn} {f : Frame} {t : Token}

theorem exec_rel (h : DRel pr.frames s.dyn d') (hf : pr.frames[s.si]? = some f) {a : Act} (ha : a = .toPtr → f.type = .ptr) (hpc : s.pc ≠ .onPtr) :
    ORel pr.frames (exec pr s f t a) (exec pr { s with dyn := d' } f t a) := by
  cases a <;> simp only [exec, h.p hf]
  case store n c => split <;> first | trivial | exact ⟨d', rfl, h, nofun⟩
  case clear n => split <;> first | trivial | exact ⟨d', rfl, h, nofun⟩
  case nop => exact ⟨d', rfl, h, nofun⟩
  case text b =>
    split
    · split
      · trivial
      · split
        · exact ⟨rfl, rfl, d', rfl, h, fun e => absurd e hpc⟩
        · exact ⟨d', rfl, h, nofun⟩
    · trivial
  case toPtr => exact ⟨d', rfl, h, fun _ => ⟨f, hf, ha rfl⟩⟩
  case toJSON => exact ⟨d', rfl, h, nofun⟩
  case err e => exact ⟨rfl, rfl, d', rfl, h, fun e => absurd e hpc⟩
  case crash => trivial

theorem sliceOf_rel (h : DRel pr.frames s.dyn d') (hf : pr.frames[s.si]? = some f) (hpc : s.pc ≠ .onPtr) {k : SKind} : ORel pr.frames (onSliceOf pr s t k) (onSliceOf pr { s with dyn := d' } t k) := by
  simp only [onSliceOf, h.p hf]
  repeat' split
  all_goals first | trivial | exact ⟨d', rfl, h, nofun⟩ | exact ⟨rfl, rfl, d', rfl, h, fun e => absurd e hpc⟩

theorem array_rel (hF : Flat pr.frames) (h : DRel pr.frames s.dyn d') (hf : pr.frames[s.si]? = some f) (hpc : s.pc ≠ .onPtr) :
    ORel pr.frames (onArray pr s f t) (onArray pr { s with dyn := d' } f t) := by
  have hk := hF _ f hf
  simp only [onArray, h.p hf]
  split
  case h_3 hty => exact absurd hty hk.noArr
  case h_4 hty =>
    repeat' split
    all_goals first
      | trivial
      | exact ⟨d', rfl, h, nofun⟩
      | exact ⟨_, rfl, h.upd (g := fun y => { y with dest := _, offset := 0 }) rfl (fun _ => rfl) (.inl rfl), fun e => absurd e hpc⟩
  case h_5 hty => exact absurd hk.noRec (by rw [hty]; decide)
  case h_7 k hty => exact sliceOf_rel h hf hpc
  case h_8 hty => exact ⟨d', rfl, h, fun _ => ⟨f, hf, hty⟩⟩
  all_goals
    repeat' split
    all_goals first | trivial | exact ⟨d', rfl, h, nofun⟩ | exact ⟨rfl, rfl, d', rfl, h, fun e => absurd e hpc⟩

theorem object_rel (hF : Flat pr.frames) (h : DRel pr.frames s.dyn d') (hf : pr.frames[s.si]? = some f) (hpc : s.pc ≠ .onPtr) :
    ORel pr.frames (onObject pr s f t) (onObject pr { s with dyn := d' } f t) := by
  have hk := hF _ f hf
  simp only [onObject, h.p hf]
  split
  case h_3 hty => exact absurd hk.noRec (by rw [hty]; decide)
  case h_4 hty => exact absurd hk.noRec (by rw [hty]; decide)
  case h_8 hty => exact absurd hk.noRec (by rw [hty]; decide)
  case h_7 hty =>
    split
    · exact ⟨d', rfl, h, nofun⟩
    · exact ⟨_, rfl, h.setFields f.fields (hk.fields hty), fun e => absurd e hpc⟩
  case h_9 hty => exact ⟨d', rfl, h, fun _ => ⟨f, hf, hty⟩⟩
  all_goals
    repeat' split
    all_goals first | trivial | exact ⟨rfl, rfl, d', rfl, h, fun e => absurd e hpc⟩ | exact ⟨d', rfl, h, fun e => absurd e hpc⟩ | exact ⟨d', rfl, h, nofun⟩

theorem key_rel (hF : Flat pr.frames) (h : DRel pr.frames s.dyn d') (hf : pr.frames[s.si]? = some f) (hpc : s.pc ≠ .onPtr) :
    ORel pr.frames (onKey pr s f t) (onKey pr { s with dyn := d' } f t) := by
  have hk := hF _ f hf
  have hmr : f.type ≠ .mapRecur := fun e => absurd hk.noRec (by rw [e]; decide)
  have hmap : f.type = .map ∨ f.type = .mapRecur → ∀ (p : Ptr) (c : Frame), pr.frames[s.si + 2]? = some c →
      DRel pr.frames (upd s.dyn (s.si + 2) fun y => { y with dest := p }) (upd d' (s.si + 2) fun y => { y with dest := p }) := by
    intro hm p c hc
    exact h.setDest hc (hk.map (hm.resolve_right hmr)) p
  simp only [onKey, h.p hf, if_neg hmr]
  split
  case h_1 => repeat' split
              all_goals first | trivial | exact ⟨rfl, rfl, d', rfl, h, fun e => absurd e hpc⟩ | exact ⟨d', rfl, h, fun e => absurd e hpc⟩
  case h_2 => repeat' split
              all_goals first | trivial | exact ⟨rfl, rfl, d', rfl, h, fun e => absurd e hpc⟩ | exact ⟨d', rfl, h, fun e => absurd e hpc⟩
  case h_3 hty =>
    repeat' split
    all_goals first | trivial | exact ⟨rfl, rfl, d', rfl, h, fun e => absurd e hpc⟩ | exact ⟨_, rfl, hmap (.inl hty) _ _ (by assumption), fun e => absurd e hpc⟩
  case h_4 hty => exact absurd hty hmr
  case h_5 => exact ⟨rfl, rfl, d', rfl, h, fun e => absurd e hpc⟩

theorem valEnd_rel (hF : Flat pr.frames) (h : DRel pr.frames s.dyn d') (hf : pr.frames[s.si]? = some f) : ORel pr.frames (onValEnd pr s f) (onValEnd pr { s with dyn := d' } f) := by
  have hk := hF _ f hf
  simp only [onValEnd]
  split
  · exact ⟨d', rfl, h, nofun⟩
  · rename_i p hp
    split
    · trivial
    · rename_i fc hfc
      have hc := hF _ fc hfc
      split
      case h_2 hty => exact absurd hty hc.noArr
      case h_3 hty =>
        refine ⟨_, rfl, h.upd (g := fun y => { y with offset := y.offset + f.size }) (h.dest _) (fun _ => rfl) ?_, nofun⟩
        rcases h.off _ f hf with e | ⟨e1, e2⟩
        · exact .inl (by simp only [e])
        · exact .inr ⟨e1, e2⟩
      all_goals exact ⟨d', rfl, h, nofun⟩

theorem ptr_rel (h : DRel pr.frames s.dyn d') (hf : pr.frames[s.si]? = some f) (ht : f.type = .ptr) : ORel pr.frames (onPtr pr s) (onPtr pr { s with dyn := d' }) := by
  have hne : ¬ Elem pr.frames (s.si + 1) := not_elem hf (by rw [ht]; exact nofun)
  simp only [onPtr, h.p hf]
  repeat' split
  all_goals first | trivial | exact ⟨d', rfl, h, nofun⟩ | exact ⟨_, rfl, h.setDest (by assumption) hne _, nofun⟩

theorem json_rel (h : DRel pr.frames s.dyn d') (hf : pr.frames[s.si]? = some f) (hpc : s.pc ≠ .onPtr) : ORel pr.frames (onJSONUnmarshaler pr s f t) (onJSONUnmarshaler pr { s with dyn := d' } f t) := by
  simp only [onJSONUnmarshaler, h.p hf]
  repeat' split
  all_goals first | trivial | exact ⟨d', rfl, h, nofun⟩ | exact ⟨rfl, rfl, d', rfl, h, fun e => absurd e hpc⟩

theorem step_rel (hF : Flat pr.frames) {s' : St} (h : SRel pr.frames s s') : ORel pr.frames (step pr s) (step pr s') := by
  obtain ⟨d', rfl, h, hptr⟩ := h
  obtain ⟨ti, si, pc, dyn, mem⟩ := s
  unfold step
  simp only []
  cases pc with
  | loop =>
    simp only []
    split
    · exact ⟨d', rfl, h, nofun⟩
    · rename_i t ht
      split
      · trivial
      · rename_i f hf
        have hne : (PC.loop : PC) ≠ .onPtr := nofun
        have ex : ∀ a : Act, (a = .toPtr → f.type = .ptr) → ORel pr.frames (exec pr ⟨ti, si, .loop, dyn, mem⟩ f t a) (exec pr ⟨ti, si, .loop, d', mem⟩ f t a) :=
          fun a ha => exec_rel (s := ⟨ti, si, .loop, dyn, mem⟩) h hf ha hne
        unfold dispatch
        split
        case h_7 => exact array_rel (s := ⟨ti, si, .loop, dyn, mem⟩) hF h hf hne
        case h_8 => exact object_rel (s := ⟨ti, si, .loop, dyn, mem⟩) hF h hf hne
        case h_9 => exact key_rel (s := ⟨ti, si, .loop, dyn, mem⟩) hF h hf hne
        case h_10 =>
          have hk := hF _ f hf
          unfold onObjectEnd
          simp only []
          split
          case h_2 hty => exact absurd hk.noRec (by rw [hty]; decide)
          all_goals exact ⟨d', rfl, h, nofun⟩
        case h_11 =>
          have hk := hF _ f hf
          unfold onArrayEnd
          simp only []
          split
          case isTrue hty => exact absurd hk.noRec (by rw [hty]; decide)
          case isFalse => exact ⟨d', rfl, h, nofun⟩
        case h_1 => exact ex _ (bool_ptr _ _ _)
        case h_2 => exact ex _ (bool_ptr _ _ _)
        case h_6 => exact ex _ (null_ptr _ _)
        all_goals
          split
          · trivial
          · first | exact ex _ (integer_ptr _ _ _) | exact ex _ (number_ptr _ _ _) | exact ex _ (string_ptr _ _ _)
  | recurObjEnd =>
    simp only []
    split
    · trivial
    · unfold onRecurObjEnd
      simp only [show (dyn si).rstack = [] from (h.rs si).1, (h.rs si).2]
      exact ⟨d', rfl, h, nofun⟩
  | valEnd =>
    simp only []
    split
    · trivial
    · rename_i f hf
      exact valEnd_rel (s := ⟨ti, si, .valEnd, dyn, mem⟩) hF h hf
  | onPtr =>
    obtain ⟨f, hf, ht⟩ := hptr rfl
    exact ptr_rel (s := ⟨ti, si, .onPtr, dyn, mem⟩) h hf ht
  | onJSON =>
    simp only []
    split
    · rename_i hf
      exact json_rel (s := ⟨ti, si, .onJSON, dyn, mem⟩) h hf nofun
    · trivial

theorem run_rel (hF : Flat pr.frames) : ∀ (n : Nat) {s s' : St}, SRel pr.frames s s' → ORel pr.frames (run pr n s) (run pr n s')
  | 0, s, s', h => h
  | n + 1, s, s', h => by
    have := step_rel hF h
    simp only [run]
    cases h1 : step pr s <;> cases h2 : step pr s' <;> rw [h1, h2] at this <;> first | exact this.elim | exact this | exact run_rel hF n this

end

/-! ## Calls of `Decode` -/

/-- No destination is kept between calls. -/
theorem served_dest {x : Ext} {d₀ d : Decoder} (hs : Served x d₀ d) (h0 : ∀ i, (d₀.dyn i).dest = .nil) : ∀ i, (d.dyn i).dest = .nil := by
  induction hs with
  | new => exact h0
  | @call d src doc t o r _ hr _ =>
    intro i
    cases t with
    | none => simp only [decode, Option.some.injEq] at hr; subst hr; rfl
    | some mem =>
      cases doc with
      | error ic => simp only [decode] at hr; split at hr <;> cases hr; rfl
      | ok v =>
        simp only [decode] at hr
        split at hr
        · cases hr
        · split at hr
          · cases hr; rfl
          · split at hr
            · cases hr
            · cases hr; rfl
          · cases hr

theorem ready_flat {x : Ext} {ty : Ty} {d : Decoder} (h : Ready x ty d) (ha : ty.noArrays = true) : Flat d.frames := by
  obtain ⟨f, hf, hp, -⟩ := h.root
  intro i g hg
  refine rep_flat ty h.rep ha hf (.inl hp) i g (Nat.zero_le i) ?_ hg
  have := (List.getElem?_eq_some_iff.1 hg).1
  rw [Nat.zero_add, ← h.len]; exact this

theorem ready_rel {x : Ext} {ty : Ty} {d d' : Decoder} (h : Ready x ty d) (h' : Ready x ty d') (hfr : d'.frames = d.frames) (ha : ty.noArrays = true) (hd : ∀ i, (d.dyn i).dest = .nil) (hd' : ∀ i, (d'.dyn i).dest = .nil) :
    DRel d.frames d.dyn d'.dyn := by
  have hF := ready_flat h ha
  have hno : ∀ i (f : Frame), d.frames[i]? = some f → f.type ≠ .structRecur := fun i f hf e => absurd (hF i f hf).noRec (by rw [e]; decide)
  have hd2 := h'.dyn
  rw [hfr] at hd2
  refine ⟨fun i => (hd i).trans (hd' i).symm, fun i => ⟨h.dyn.rs i (hno i), hd2.rs i (hno i)⟩, fun i c hc => ?_⟩
  rcases (hF i c hc).link with e | ⟨p, g, e, hg, e'⟩
  · exact .inl ((h.dyn.root i c hc (hno i c hc) e).trans (hd2.root i c hc (hno i c hc) e).symm)
  · have key : (g.type = .struct ∨ g.type = .map ∨ g.type = .ptr ∨ g.type = .structRecur) → (d.dyn i).offset = (d'.dyn i).offset := fun ht =>
      (h.dyn.off i c p g hc (hno i c hc) e hg ht).trans (hd2.off i c p g hc (hno i c hc) e hg ht).symm
    rcases e' with e' | e' | e' | ⟨e1, e2⟩
    · exact .inl (key (.inl e'))
    · exact .inl (key (.inr (.inl e')))
    · exact .inl (key (.inr (.inr (.inl e'))))
    · exact .inr ⟨⟨p, g, e2, hg, e1⟩, hd i⟩

/-! ## The number of the call -/

section
variable {pr : Prog} {s : St} {f : Frame} {t : Token}

theorem array_epoch (e : Nat) (h : f.type ≠ .sliceRecur) : onArray { pr with epoch := e } s f t = onArray pr s f t := by
  simp only [onArray]
  split <;> first | rfl | exact absurd (by assumption) h

theorem object_epoch (e : Nat) (h : recurType f.type = false) : onObject { pr with epoch := e } s f t = onObject pr s f t := by
  simp only [onObject]
  split <;> first | rfl | (rename_i ht; rw [ht] at h; cases h)

/-- A step without recursion does not use the number of the call. -/
theorem step_epoch (hF : Flat pr.frames) (e : Nat) (hrs : ∀ i, (s.dyn i).rstack = []) : step { pr with epoch := e } s = step pr s := by
  obtain ⟨ti, si, pc, dyn, mem⟩ := s
  unfold step
  cases pc with
  | loop =>
    simp only []
    split
    · rfl
    · split
      · rfl
      · rename_i t _ _ f hf
        have hk := (hF _ f hf).noRec
        have hns : f.type ≠ .sliceRecur := fun ht => by rw [ht] at hk; cases hk
        unfold dispatch
        simp only [array_epoch e hns, object_epoch e hk]
        have hoe : onObjectEnd { pr with epoch := e } ⟨ti, si, .loop, dyn, mem⟩ f = onObjectEnd pr ⟨ti, si, .loop, dyn, mem⟩ f := by
          unfold onObjectEnd
          split <;> first | rfl | (rename_i ht; rw [ht] at hk; cases hk)
        have hae : onArrayEnd { pr with epoch := e } ⟨ti, si, .loop, dyn, mem⟩ f = onArrayEnd pr ⟨ti, si, .loop, dyn, mem⟩ f := by
          unfold onArrayEnd
          simp only []
          split
          case isTrue ht => rw [ht] at hk; cases hk
          case isFalse => rfl
        cases t.type <;> first | rfl | exact hoe | exact hae
  | recurObjEnd =>
    simp only []
    split
    · rfl
    · unfold onRecurObjEnd
      simp only [show (dyn si).rstack = [] from hrs si]
  | valEnd => rfl
  | onPtr => rfl
  | onJSON => rfl

theorem run_epoch (hF : Flat pr.frames) (e : Nat) : ∀ (n : Nat) {s : St}, SRel pr.frames s s → run { pr with epoch := e } n s = run pr n s
  | 0, s, h => rfl
  | n + 1, s, h => by
    have h1 := step_rel hF h
    obtain ⟨d', h2, h3, -⟩ := h
    simp only [run, step_epoch hF e (fun i => (h3.rs i).1)]
    cases hs : step pr s with
    | run s' => rw [hs] at h1; exact run_epoch hF e n h1
    | _ => rfl

end

/-- **The same call with two decoders.** -/
theorem decode_rel {x : Ext} {ty : Ty} {d d' : Decoder} (h : Ready x ty d) (h' : Ready x ty d') (hfr : d'.frames = d.frames) (ha : ty.noArrays = true) (hd : ∀ i, (d.dyn i).dest = .nil)
    (hd' : ∀ i, (d'.dyn i).dest = .nil) (src : Bytes) (doc : Except (Nat × Nat) JVal) (dest : Option Block) (o : Option Options) :
    observe (decode x d src doc dest o) = observe (decode x d' src doc dest o) := by
  cases dest with
  | none => rfl
  | some mem =>
    have hF := ready_flat h ha
    have hr := ready_rel h h' hfr ha hd hd'
    have hr' := ready_rel h' h' rfl ha hd' hd'
    obtain ⟨f0, hf0, -⟩ := h.root
    have hne : ¬ Elem d.frames 0 := fun ⟨j, g, e, _⟩ => by omega
    cases doc with
    | error ic => simp only [decode, hfr]; split <;> rfl
    | ok v =>
      have hi : SRel d.frames (initSt d.dyn mem) (initSt d'.dyn mem) := ⟨_, rfl, hr.setDest hf0 hne _, nofun⟩
      rw [hfr] at hr'
      have hi' : SRel d.frames (initSt d'.dyn mem) (initSt d'.dyn mem) := ⟨_, rfl, hr'.setDest hf0 hne _, nofun⟩
      have key := run_rel (pr := { x := x, src := src, toks := flatten 0 v, frames := d.frames, options := o, epoch := d.calls }) hF
        (fuelFor { x := x, src := src, toks := flatten 0 v, frames := d.frames, options := o, epoch := d.calls }) hi
      rw [← run_epoch (pr := { x := x, src := src, toks := flatten 0 v, frames := d.frames, options := o, epoch := d.calls }) hF d'.calls _ hi'] at key
      simp only [decode, hfr]
      obtain ⟨fs, hfs⟩ : ∃ fs, d.frames = f0 :: fs := by
        cases hd : d.frames with
        | nil => rw [hd] at hf0; cases hf0
        | cons a l => rw [hd] at hf0; cases hf0; exact ⟨l, rfl⟩
      rw [hfs] at key
      rw [hfs]
      simp only []
      simp only [fuelFor] at key ⊢
      revert key
      generalize run _ _ (initSt d.dyn mem) = o1
      generalize run _ _ (initSt d'.dyn mem) = o2
      intro key
      cases o1 <;> cases o2 <;> first | exact key.elim | rfl | skip
      · obtain ⟨d2, rfl, k, -⟩ := key
        simp only [← k.dest]
        split <;> rfl
      · obtain ⟨rfl, rfl, d2, rfl, k, -⟩ := key
        rfl

/-- A decoder with a history and a new one. -/
theorem decode_served {env : TypeEnv} {x : Ext} {opts : Option InitOptions} {depth : Nat} {t : Option TypeId} {ty : Ty} {d₀ d : Decoder} (h : HasTree env x opts depth t ty)
    (hn : newDecoder env x.W opts depth t = .ok d₀) (hs : Served x d₀ d) (ha : ty.noArrays = true) (src : Bytes) (doc : Except (Nat × Nat) JVal) (dest : Option Block) (o : Option Options) :
    observe (decode x d src doc dest o) = observe (decode x d₀ src doc dest o) := by
  have h0 : ∀ i, (d₀.dyn i).dest = .nil := by
    intro i
    simp only [newDecoder] at hn
    split at hn <;> cases hn
    simp only [freshDyn]; split <;> rfl
  have hr := hasTree_ready h hn
  have hfr : d₀.frames = d.frames := by
    clear hn h hr h0
    induction hs with
    | new => rfl
    | call _ hr ih => rw [decode_frames hr, ih]
  exact decode_rel (served_ready hr hs) hr hfr ha (served_dest hs h0) h0 src doc dest o

end Verif.Proof.Reuse

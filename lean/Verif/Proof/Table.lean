import Verif.Proof.Root
/-!
# Frame tables without recursive types: offsets and recursion stacks are never changed for good
-/
namespace Verif.Proof.Sim
open Verif.Model Verif.Big Verif.Proof.Mem Verif.Proof.Any

/-- Frame types of recursive values. -/
def recurType : EType → Bool
  | .sliceRecur | .mapRecur | .ptrRecur | .structRecur => true
  | _ => false

/-- A frame of a table without recursive types: the frame after an array or slice frame is linked to it. -/
def TableAt (fr : List Frame) (i : Nat) : Prop :=
  ∃ f, fr[i]? = some f ∧ recurType f.type = false ∧ (f.type = .array ∨ f.type = .slice → Linked fr i (i + 1) (fun _ => True))

theorem plain_table {fr : List Frame} {i : Nat} {f : Frame} (h : fr[i]? = some f) (hp : plainType f.type = true) : TableAt fr i := by
  refine ⟨f, h, ?_, ?_⟩
  · cases hf : f.type <;> rw [hf] at hp <;> first | rfl | cases hp
  · rintro (hf | hf) <;> rw [hf] at hp <;> cases hp

theorem linked_weaken {fr : List Frame} {b i : Nat} {P : Frame → Prop} (h : Linked fr b i P) : Linked fr b i (fun _ => True) := by
  obtain ⟨c, h1, h2, -⟩ := h
  exact ⟨c, h1, h2, trivial⟩

theorem key_plain {f : Frame} {k : KeyTy} (h : k.Rep f) : plainType f.type = true := by
  cases k with
  | str => simp only [KeyTy.Rep] at h; rw [h]; rfl
  | int k => simp only [KeyTy.Rep] at h; rw [h]; rfl
  | text rt impl => simp only [KeyTy.Rep] at h; rw [h.1]; rfl
  | other => exact h.1

mutual
theorem rep_table {x : Ext} {fr : List Frame} : ∀ (ty : Ty) {b : Nat}, Rep x fr ty b → ∀ i, b ≤ i → i < b + ty.width → TableAt fr i
  | .array n e, b, h, i, h1, h2 => by
    simp only [Ty.width] at h2
    obtain ⟨⟨f, hf, ht, -⟩, -, hl, hr⟩ := h
    by_cases hi : i = b
    · subst hi
      exact ⟨f, hf, by rw [ht]; rfl, fun _ => linked_weaken hl⟩
    · exact rep_table e hr i (by omega) (by omega)
  | .slice e, b, h, i, h1, h2 => by
    simp only [Ty.width] at h2
    obtain ⟨⟨f, hf, ht, -⟩, hl, hr⟩ := h
    by_cases hi : i = b
    · subst hi
      exact ⟨f, hf, by rw [ht]; rfl, fun _ => linked_weaken hl⟩
    · exact rep_table e hr i (by omega) (by omega)
  | .ptr e, b, h, i, h1, h2 => by
    simp only [Ty.width] at h2
    obtain ⟨⟨f, hf, ht, -⟩, hl, hr⟩ := h
    by_cases hi : i = b
    · subst hi
      exact plain_table hf (by rw [ht]; rfl)
    · exact rep_table e hr i (by omega) (by omega)
  | .map k e, b, h, i, h1, h2 => by
    simp only [Ty.width] at h2
    obtain ⟨⟨f, hf, ht, -⟩, ⟨c, hc, -, hk⟩, hl, hr⟩ := h
    by_cases hi : i = b
    · subst hi
      exact plain_table hf (by rw [ht]; rfl)
    · by_cases hi' : i = b + 1
      · subst hi'
        exact plain_table hc (key_plain hk)
      · exact rep_table e hr i (by omega) (by omega)
  | .struct n fs, b, h, i, h1, h2 => by
    simp only [Ty.width] at h2
    obtain ⟨f, hf, ht, -, hr⟩ := h
    by_cases hi : i = b
    · subst hi
      exact plain_table hf (by rw [ht]; rfl)
    · exact repF_table fs hr i (by omega) (by omega)
  | .any, b, h, i, h1, h2 => by simp only [Ty.width] at h2; obtain ⟨f, hf, ht, -⟩ := h; exact plain_table (f := f) (by rw [← hf]; congr 1; omega) (by rw [ht]; rfl)
  | .number, b, h, i, h1, h2 => by simp only [Ty.width] at h2; obtain ⟨f, hf, ht, -⟩ := h; exact plain_table (f := f) (by rw [← hf]; congr 1; omega) (by rw [ht]; rfl)
  | .scalar _, b, h, i, h1, h2 => by simp only [Ty.width] at h2; obtain ⟨f, hf, ht, -⟩ := h; exact plain_table (f := f) (by rw [← hf]; congr 1; omega) (by rw [ht]; rfl)
  | .quoted _, b, h, i, h1, h2 => by simp only [Ty.width] at h2; obtain ⟨f, hf, ht, -⟩ := h; exact plain_table (f := f) (by rw [← hf]; congr 1; omega) (by rw [ht]; rfl)
  | .jsonU _ _ _, b, h, i, h1, h2 => by simp only [Ty.width] at h2; obtain ⟨f, hf, ht, -⟩ := h; exact plain_table (f := f) (by rw [← hf]; congr 1; omega) (by rw [ht]; rfl)
  | .textU _ _ _, b, h, i, h1, h2 => by simp only [Ty.width] at h2; obtain ⟨f, hf, ht, -⟩ := h; exact plain_table (f := f) (by rw [← hf]; congr 1; omega) (by rw [ht]; rfl)
  | .array0, b, h, i, h1, h2 => by simp only [Ty.width] at h2; obtain ⟨f, hf, ht, -⟩ := h; exact plain_table (f := f) (by rw [← hf]; congr 1; omega) (by rw [ht]; rfl)
  | .sliceOf _, b, h, i, h1, h2 => by simp only [Ty.width] at h2; obtain ⟨f, hf, ht, -⟩ := h; exact plain_table (f := f) (by rw [← hf]; congr 1; omega) (by rw [ht]; rfl)
  | .sliceES, b, h, i, h1, h2 => by simp only [Ty.width] at h2; obtain ⟨f, hf, ht, -⟩ := h; exact plain_table (f := f) (by rw [← hf]; congr 1; omega) (by rw [ht]; rfl)
  | .mapSS, b, h, i, h1, h2 => by simp only [Ty.width] at h2; obtain ⟨f, hf, ht, -⟩ := h; exact plain_table (f := f) (by rw [← hf]; congr 1; omega) (by rw [ht]; rfl)
  | .emptyStruct, b, h, i, h1, h2 => by simp only [Ty.width] at h2; obtain ⟨f, hf, ht, -⟩ := h; exact plain_table (f := f) (by rw [← hf]; congr 1; omega) (by rw [ht]; rfl)
theorem repF_table {x : Ext} {fr : List Frame} : ∀ (fs : List (Bytes × Nat × Ty)) {b pos : Nat} {tbl : List (Bytes × Nat)}, RepFields x fr b fs pos tbl →
    ∀ i, pos ≤ i → i < pos + widthF fs → TableAt fr i
  | [], b, pos, tbl, h, i, h1, h2 => by simp only [widthF] at h2; omega
  | (n, o, t) :: fs, b, pos, tbl, h, i, h1, h2 => by
    simp only [widthF] at h2
    obtain ⟨tbl', -, -, hr, hrf⟩ := h
    by_cases hi : i < pos + t.width
    · exact rep_table t hr i h1 hi
    · exact repF_table fs hrf i (by omega) (by omega)
end

/-- Some property of the state of an outcome. -/
def OutP (P : St → Prop) : Out → Prop
  | .run s | .done s | .err _ _ s => P s
  | .crash => True

theorem exec_dyn (pr : Prog) (s : St) (f : Frame) (t : Token) (a : Act) : OutP (fun s' => s'.dyn = s.dyn) (exec pr s f t a) := by
  cases a with
  | store n c => simp only [exec]; cases writeSeg s.mem s.p (seg n c) <;> simp [OutP]
  | clear n => simp only [exec]; cases writeSeg s.mem s.p (zeros n) <;> simp [OutP]
  | text b =>
    simp only [exec]
    split
    · split
      · trivial
      · split <;> rfl
    · trivial
  | nop | toPtr | toJSON | err e => simp [exec, OutP]
  | crash => trivial

theorem OutP.imp {P Q : St → Prop} {o : Out} (h : OutP P o) (hi : ∀ s, P s → Q s) : OutP Q o := by
  cases o <;> first | exact hi _ h | trivial

theorem sliceOf_dyn (pr : Prog) (s : St) (t : Token) (k : SKind) : OutP (fun s' => s'.dyn = s.dyn) (onSliceOf pr s t k) := by
  unfold onSliceOf
  simp only []
  repeat' split
  all_goals first | trivial | rfl

theorem json_dyn (pr : Prog) (s : St) (f : Frame) (t : Token) : OutP (fun s' => s'.dyn = s.dyn) (onJSONUnmarshaler pr s f t) := by
  unfold onJSONUnmarshaler
  simp only []
  repeat' split
  all_goals first | trivial | rfl

/-- A table of frames without recursive types. -/
def Table (fr : List Frame) : Prop := ∀ (i : Nat) (f : Frame), fr[i]? = some f → TableAt fr i

theorem Table.nr {fr : List Frame} (h : Table fr) {i : Nat} {f : Frame} (hf : fr[i]? = some f) {t : EType} (ht : f.type = t) : recurType t = false := by
  obtain ⟨f', hf', h, -⟩ := h i f hf
  rw [hf] at hf'; cases hf'; rw [← ht]; exact h

theorem Table.el {fr : List Frame} (h : Table fr) {i : Nat} {f : Frame} (hf : fr[i]? = some f) (ht : f.type = .array ∨ f.type = .slice) : Linked fr i (i + 1) (fun _ => True) := by
  obtain ⟨f', hf', -, h⟩ := h i f hf
  rw [hf] at hf'; cases hf'; exact h ht

theorem array_dynOK {pr : Prog} (ht : Table pr.frames) {s : St} (h : DynOK pr.frames s.dyn) {f : Frame} {t : Token} (hf : pr.frames[s.si]? = some f) :
    OutP (fun s' => DynOK pr.frames s'.dyn) (onArray pr s f t) := by
  unfold onArray
  simp only []
  split
  case h_3 hty =>
    obtain ⟨c, hc, hcp, -⟩ := ht.el hf (.inl hty)
    split
    · exact h
    · exact h.upd_elem hc hcp hf (.inl hty) (g := fun y => { y with dest := s.p, len := 0, offset := 0 }) rfl
  case h_4 hty =>
    obtain ⟨c, hc, hcp, -⟩ := ht.el hf (.inr hty)
    have hu : ∀ p, DynOK pr.frames (upd s.dyn (s.si + 1) fun y => { y with dest := p, offset := 0 }) :=
      fun p => h.upd_elem hc hcp hf (.inr hty) (g := fun y => { y with dest := p, offset := 0 }) rfl
    repeat' split
    all_goals first | trivial | exact h | exact hu _
  case h_5 hty => exact absurd (ht.nr hf hty) (by decide)
  case h_7 k hty => exact (sliceOf_dyn pr s t k).imp fun s' hs => by rw [hs]; exact h
  all_goals
    repeat' split
    all_goals first | trivial | exact h

theorem object_dynOK {pr : Prog} (ht : Table pr.frames) {s : St} (h : DynOK pr.frames s.dyn) {f : Frame} {t : Token} (hf : pr.frames[s.si]? = some f) :
    OutP (fun s' => DynOK pr.frames s'.dyn) (onObject pr s f t) := by
  unfold onObject
  simp only []
  split
  case h_3 hty => exact absurd (ht.nr hf hty) (by decide)
  case h_4 hty => exact absurd (ht.nr hf hty) (by decide)
  case h_8 hty => exact absurd (ht.nr hf hty) (by decide)
  case h_7 hty =>
    split
    · exact h
    · exact h.setFields s.p f.fields
  all_goals
    repeat' split
    all_goals first | trivial | exact h

theorem key_dynOK {pr : Prog} {s : St} (h : DynOK pr.frames s.dyn) (f : Frame) (t : Token) :
    OutP (fun s' => DynOK pr.frames s'.dyn) (onKey pr s f t) := by
  unfold onKey
  simp only []
  have hu : ∀ si p, DynOK pr.frames (upd s.dyn si fun y => { y with dest := p }) := fun si p => h.upd_dest si (g := fun y => { y with dest := p }) rfl rfl
  repeat' split
  all_goals first | trivial | exact h | exact hu _ _

theorem objectEnd_dynOK {pr : Prog} (ht : Table pr.frames) {s : St} (h : DynOK pr.frames s.dyn) {f : Frame} (hf : pr.frames[s.si]? = some f) :
    OutP (fun s' => DynOK pr.frames s'.dyn) (onObjectEnd pr s f) := by
  unfold onObjectEnd
  simp only []
  split
  case h_2 hty => exact absurd (ht.nr hf hty) (by decide)
  all_goals exact h

theorem arrayEnd_dynOK {pr : Prog} (ht : Table pr.frames) {s : St} (h : DynOK pr.frames s.dyn) {f : Frame} (hf : pr.frames[s.si]? = some f) :
    OutP (fun s' => DynOK pr.frames s'.dyn) (onArrayEnd pr s f) := by
  unfold onArrayEnd
  simp only []
  split
  case isTrue hty => exact absurd (ht.nr hf hty) (by decide)
  case isFalse => exact h

theorem recurObjEnd_dynOK {pr : Prog} (ht : Table pr.frames) {s : St} (h : DynOK pr.frames s.dyn) (f : Frame) : OutP (fun s' => DynOK pr.frames s'.dyn) (onRecurObjEnd pr s f) := by
  unfold onRecurObjEnd
  rw [h.rs s.si (fun f' hf' hc => absurd (ht.nr hf' hc) (by decide))]
  exact h

theorem valEnd_dynOK {pr : Prog} {s : St} (h : DynOK pr.frames s.dyn) {f : Frame} (hf : pr.frames[s.si]? = some f) : OutP (fun s' => DynOK pr.frames s'.dyn) (onValEnd pr s f) := by
  unfold onValEnd
  simp only []
  split
  · exact h
  · rename_i p hp
    split
    · trivial
    · rename_i fc hfc
      split
      case h_2 hty =>
        have h1 := h.upd_elem hf hp hfc (.inl hty) (g := fun y => { y with len := y.len + 1 }) rfl
        split
        · split
          · trivial
          · exact h1
        · exact h1.upd_elem hf hp hfc (.inl hty) (g := fun y => { y with offset := y.offset + f.size }) rfl
      case h_3 hty => exact h.upd_elem hf hp hfc (.inr hty) (g := fun y => { y with offset := y.offset + f.size }) rfl
      all_goals exact h

theorem ptr_dynOK {pr : Prog} {s : St} (h : DynOK pr.frames s.dyn) : OutP (fun s' => DynOK pr.frames s'.dyn) (onPtr pr s) := by
  unfold onPtr
  have hu : ∀ si p, DynOK pr.frames (upd s.dyn si fun y => { y with dest := p }) := fun si p => h.upd_dest si (g := fun y => { y with dest := p }) rfl rfl
  repeat' split
  all_goals first | trivial | exact h | exact hu _ _

/-- No step changes a static offset or a recursion stack. -/
theorem step_dynOK {pr : Prog} (ht : Table pr.frames) {s : St} (h : DynOK pr.frames s.dyn) :
    OutP (fun s' => DynOK pr.frames s'.dyn) (step pr s) := by
  have same : ∀ {o : Out}, OutP (fun s' => s'.dyn = s.dyn) o → OutP (fun s' => DynOK pr.frames s'.dyn) o :=
    fun ho => ho.imp fun s' hs => by rw [hs]; exact h
  unfold step
  split
  · split
    · exact h
    · split
      · trivial
      · rename_i f hf
        unfold dispatch
        split
        case h_7 => exact array_dynOK ht h hf
        case h_8 => exact object_dynOK ht h hf
        case h_9 => exact key_dynOK h _ _
        case h_10 => exact objectEnd_dynOK ht h hf
        case h_11 => exact arrayEnd_dynOK ht h hf
        all_goals first
          | exact same (exec_dyn ..)
          | (split
             · trivial
             · exact same (exec_dyn ..))
  · split
    · trivial
    · exact recurObjEnd_dynOK ht h _
  · split
    · trivial
    · rename_i hf
      exact valEnd_dynOK h hf
  · exact ptr_dynOK h
  · split
    · exact same (json_dyn ..)
    · trivial

theorem run_dynOK {pr : Prog} (ht : Table pr.frames) : ∀ (n : Nat) {s : St}, DynOK pr.frames s.dyn → OutP (fun s' => DynOK pr.frames s'.dyn) (run pr n s) := by
  intro n
  induction n with
  | zero => intro s h; exact h
  | succ n ih =>
    intro s h
    rw [run]
    have := step_dynOK ht h
    cases hs : step pr s with
    | run s' => rw [hs] at this; exact ih this
    | done s' => rw [hs] at this; exact this
    | err i e s' => rw [hs] at this; exact this
    | crash => trivial

end Verif.Proof.Sim

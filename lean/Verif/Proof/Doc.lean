import Verif.Spec.Doc
import Verif.Proof.JsonNum
import Verif.Proof.Unescape
/-!
# Deciding `Wf`, and what it gives the decoder
-/
namespace Verif.Proof.Doc
open Verif.Model Verif.Spec
open Verif.Model.JsonNum (readNumber RC)

theorem integer_number {s : Bytes} (h : IsInteger s) : IsNumber s := by
  obtain ⟨sg, i, rfl, h1, h2⟩ := h
  exact ⟨sg, i, [], [], by simp, h1, h2, .inl rfl, .inl rfl⟩

theorem readNumber_of_number {s : Bytes} (h : IsNumber s) :
    ∃ rc, readNumber s = some ([], rc) ∧ rc ≠ .err ∧ (rc = .integer ↔ IsInteger s) := by
  have hs : s ≠ [] := by
    rintro rfl
    obtain ⟨sg, i, f, e, h, -, hi, -⟩ := h
    simp at h
    exact Proof.Atoi.natLit_ne_nil hi h.2.1
  obtain ⟨q, t, rc, r, h1, h2, h3, h4, h5, h6⟩ := Proof.JsonNum.readNumber_longest s hs
  have hq : q = s := by
    refine Proof.JsonNum.longest_unique h3 ⟨⟨[], by simp⟩, Proof.JsonNum.number_viable h, fun q' hq' _ => hq'.length_le⟩
  subst hq
  have ht : t = [] := by simpa using h2
  subst ht
  exact ⟨rc, by rw [h1, h6 h], fun he => (h4.1 he) h, h5⟩

theorem number_of_readNumber {s : Bytes} {rc : RC} (h : readNumber s = some ([], rc)) (hrc : rc ≠ .err) : IsNumber s := by
  have hs : s ≠ [] := by rintro rfl; cases h
  obtain ⟨q, t, rest, rc', h1, h2, h3, h4, h5, h6⟩ := Proof.JsonNum.readNumber_longest s hs
  rw [h] at h1; cases h1
  have hq : IsNumber q := Classical.byContradiction fun hn => hrc (h4.2 hn)
  have := h6 hq
  subst this
  simp at h2; subst h2; exact hq

/-- Decision procedure for numbers. -/
def isNumberB (s : Bytes) : Bool :=
  match readNumber s with
  | some ([], rc) => rc != .err
  | _ => false

theorem isNumberB_iff (s : Bytes) : isNumberB s = true ↔ IsNumber s := by
  unfold isNumberB
  constructor
  · intro h
    split at h
    · rename_i rc hr
      exact number_of_readNumber hr (by simpa using h)
    · cases h
  · intro h
    obtain ⟨rc, h1, h2, -⟩ := readNumber_of_number h
    rw [h1]; simpa using h2

/-- Decision procedure for integers. -/
def isIntegerB (s : Bytes) : Bool :=
  match readNumber s with
  | some ([], rc) => rc == .integer
  | _ => false

theorem isIntegerB_iff (s : Bytes) : isIntegerB s = true ↔ IsInteger s := by
  unfold isIntegerB
  constructor
  · intro h
    split at h
    · rename_i rc hr
      have : rc = .integer := by simpa using h
      subst this
      obtain ⟨rc, h1, h2, h3⟩ := readNumber_of_number (number_of_readNumber hr (by decide))
      rw [hr] at h1; cases h1
      exact h3.1 rfl
    · cases h
  · intro h
    obtain ⟨rc, h1, h2, h3⟩ := readNumber_of_number (integer_number h)
    rw [h1]; simpa using h3.2 h

instance (s : Bytes) : Decidable (IsNumber s) := decidable_of_iff _ (isNumberB_iff s)
instance (s : Bytes) : Decidable (IsInteger s) := decidable_of_iff _ (isIntegerB_iff s)

/-- Decision procedure for string contents, with an accumulator-free structural recursion on fuel. -/
def contentB : Nat → Bytes → Bool
  | _, [] => true
  | 0, _ => false
  | n + 1, 92 :: 117 :: a :: b :: c :: d :: s =>
    (hexVal a).isSome && (hexVal b).isSome && (hexVal c).isSome && (hexVal d).isSome && contentB n s
  | n + 1, 92 :: c :: s => (escChar c).isSome && contentB n s
  | n + 1, c :: s => c != 92 && contentB n s

theorem contentB_sound (n : Nat) (s : Bytes) : contentB n s = true → ∃ out, Denotes s out := by
  fun_induction contentB n s with
  | case1 => exact fun _ => ⟨[], .nil⟩
  | case2 => intro h; cases h
  | case3 n a b c d s ih =>
    intro h
    simp only [Bool.and_eq_true] at h
    obtain ⟨⟨⟨⟨ha, hb⟩, hc⟩, hd⟩, hs⟩ := h
    obtain ⟨o, ho⟩ := ih hs
    obtain ⟨w, hw⟩ := Option.isSome_iff_exists.1 ha
    obtain ⟨x, hx⟩ := Option.isSome_iff_exists.1 hb
    obtain ⟨y, hy⟩ := Option.isSome_iff_exists.1 hc
    obtain ⟨z, hz⟩ := Option.isSome_iff_exists.1 hd
    exact ⟨_, .uni hw hx hy hz ho⟩
  | case4 n c s _ ih =>
    intro h
    simp only [Bool.and_eq_true] at h
    obtain ⟨hc, hs⟩ := h
    obtain ⟨o, ho⟩ := ih hs
    obtain ⟨r, hr⟩ := Option.isSome_iff_exists.1 hc
    exact ⟨_, .esc hr ho⟩
  | case5 n c s _ _ ih =>
    intro h
    simp only [Bool.and_eq_true] at h
    obtain ⟨hc, hs⟩ := h
    obtain ⟨o, ho⟩ := ih hs
    exact ⟨_, .plain (by simpa using hc) ho⟩

theorem contentB_complete {s o : Bytes} (h : Denotes s o) : ∀ n, s.length ≤ n → contentB n s = true := by
  induction h with
  | nil => intro n _; cases n <;> rfl
  | @plain c s o hc _ ih =>
    intro n hn
    cases n with
    | zero => simp at hn
    | succ n =>
      have := ih n (by simp at hn; omega)
      rw [contentB]
      · simp [hc, this]
      · rintro a b c' d s' rfl _; exact absurd rfl hc
      · rintro c' s' rfl _; exact absurd rfl hc
  | @esc c r s o hc _ ih =>
    intro n hn
    cases n with
    | zero => simp at hn
    | succ n =>
      have := ih n (by simp at hn; omega)
      rw [contentB]
      · simp [hc, this]
      · rintro a b c' d s' rfl; rw [show escChar 117 = none from by decide] at hc; cases hc
  | @uni a b c d w x y z s o ha hb hc hd _ ih =>
    intro n hn
    cases n with
    | zero => simp at hn
    | succ n =>
      have := ih n (by simp at hn; omega)
      rw [contentB]
      simp [ha, hb, hc, hd, this]

theorem content_iff (s : Bytes) : contentB s.length s = true ↔ ∃ out, Denotes s out :=
  ⟨contentB_sound _ _, fun ⟨_, h⟩ => contentB_complete h _ (Nat.le_refl _)⟩

instance (s : Bytes) : Decidable (∃ out, Denotes s out) := decidable_of_iff _ (content_iff s)
instance (src : Bytes) (i e : Nat) : Decidable (WfStr src i e) := by unfold WfStr; infer_instance
instance (src : Bytes) (b : Bool) (i e : Nat) : Decidable (WfNum src b i e) := by unfold WfNum; infer_instance

mutual
/-- `Wf` is decidable. -/
def decWf (src : Bytes) : (v : JVal) → Decidable (Wf src v)
  | .null i e => inferInstanceAs (Decidable (i ≤ e ∧ e ≤ src.length ∧ text src i e = b!"null"))
  | .bool b i e => inferInstanceAs (Decidable (i ≤ e ∧ e ≤ src.length ∧ text src i e = (if b then b!"true" else b!"false")))
  | .num isInt i e => inferInstanceAs (Decidable (WfNum src isInt i e))
  | .str i e => inferInstanceAs (Decidable (WfStr src i e))
  | .arr i es k =>
    have := decWfL src es
    inferInstanceAs (Decidable (i < k ∧ k < src.length ∧ src[i]? = some 91 ∧ src[k]? = some 93 ∧ WfL src es))
  | .obj i ms k =>
    have := decWfM src ms
    inferInstanceAs (Decidable (i < k ∧ k < src.length ∧ src[i]? = some 123 ∧ src[k]? = some 125 ∧ WfM src ms))
/-- `WfL` is decidable. -/
def decWfL (src : Bytes) : (vs : List JVal) → Decidable (WfL src vs)
  | [] => .isTrue trivial
  | v :: vs =>
    have := decWf src v
    have := decWfL src vs
    inferInstanceAs (Decidable (Wf src v ∧ WfL src vs))
/-- `WfM` is decidable. -/
def decWfM (src : Bytes) : (ms : List ((Nat × Nat) × JVal)) → Decidable (WfM src ms)
  | [] => .isTrue trivial
  | (k, v) :: ms =>
    have := decWf src v
    have := decWfM src ms
    inferInstanceAs (Decidable (WfStr src k.1 k.2 ∧ Wf src v ∧ WfM src ms))
end
instance (src : Bytes) (v : JVal) : Decidable (Wf src v) := decWf src v

theorem slice_text {src : Bytes} {i e : Nat} (h : i ≤ e) (h' : e ≤ src.length) : slice src i e = some (text src i e) := by
  simp [slice, text, h, h']

theorem slice_inner {src : Bytes} {i e : Nat} (h : WfStr src i e) : slice src (i + 1) (e - 1) = some (inner src i e) :=
  slice_text (by have := h.1; omega) (by have := h.2.1; omega)

/-- A well-formed value has a non-empty extent inside the text. -/
theorem wf_extent {src : Bytes} {v : JVal} (h : Wf src v) : v.index < v.stop ∧ v.stop ≤ src.length := by
  cases v with
  | null i e =>
    obtain ⟨h1, h2, h3⟩ := h
    refine ⟨?_, h2⟩
    simp only [JVal.index, JVal.stop]
    rcases Nat.lt_or_ge i e with h | h
    · exact h
    · have : e - i = 0 := by omega
      simp [text, this] at h3
  | bool b i e =>
    obtain ⟨h1, h2, h3⟩ := h
    refine ⟨?_, h2⟩
    simp only [JVal.index, JVal.stop]
    rcases Nat.lt_or_ge i e with h | h
    · exact h
    · have : e - i = 0 := by omega
      simp [text, this] at h3
      cases b <;> cases h3
  | num b i e =>
    obtain ⟨h1, h2, h3, -⟩ := h
    refine ⟨?_, h2⟩
    simp only [JVal.index, JVal.stop]
    rcases Nat.lt_or_ge i e with h | h
    · exact h
    · have : e - i = 0 := by omega
      simp [text, this] at h3
      obtain ⟨rc, h, -⟩ := readNumber_of_number h3
      cases h
  | str i e =>
    have h1 := h.1; have h2 := h.2.1
    simp only [JVal.index, JVal.stop]
    omega
  | arr i es k => have h1 := h.1; have h2 := h.2.1; simp only [JVal.index, JVal.stop]; omega
  | obj i es k => have h1 := h.1; have h2 := h.2.1; simp only [JVal.index, JVal.stop]; omega

end Verif.Proof.Doc

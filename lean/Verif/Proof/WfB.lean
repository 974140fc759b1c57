import Verif.Spec.Doc
import Verif.Spec.Parse
import Verif.Props.Leaf
/-!
# A checker for the contract of the tokenizer, for concrete documents
-/
namespace Verif.Proof.WfB
open Verif.Model Verif.Spec

/-- What a string content denotes. -/
def denote : Bytes → Option Bytes
  | [] => some []
  | 92 :: 117 :: a :: b :: c :: d :: s =>
    match hexVal a, hexVal b, hexVal c, hexVal d, denote s with
    | some w, some x, some y, some z, some o => some (unitText (4096 * w + 256 * x + 16 * y + z) ++ o)
    | _, _, _, _, _ => none
  | 92 :: c :: s =>
    match escChar c, denote s with
    | some r, some o => some (r :: o)
    | _, _ => none
  | c :: s => if c = 92 then none else (denote s).map (c :: ·)

theorem denote_sound (s : Bytes) : ∀ o, denote s = some o → Denotes s o := by
  fun_induction denote s with
  | case1 => intro o h; cases h; exact .nil
  | case2 a b c d s w x y z o hs hd hc hb ha ih => intro o h; cases h; exact .uni ha hb hc hd (ih _ hs)
  | case3 => intro o h; cases h
  | case4 c s _ r o hs hr ih => intro o h; cases h; exact .esc hr (ih _ hs)
  | case5 => intro o h; cases h
  | case6 => intro o h; cases h
  | case7 c s _ _ hc ih =>
    intro o h
    rw [Option.map_eq_some_iff] at h
    obtain ⟨o', h1, rfl⟩ := h
    exact .plain hc (ih _ h1)

/-- Strings. -/
def strB (src : Bytes) (i e : Nat) : Bool := decide (i + 2 ≤ e) && decide (e ≤ src.length) && (denote (inner src i e)).isSome

theorem strB_sound {src : Bytes} {i e : Nat} (h : strB src i e = true) : WfStr src i e := by
  simp only [strB, Bool.and_eq_true, decide_eq_true_eq, Option.isSome_iff_exists] at h
  obtain ⟨⟨h1, h2⟩, o, h3⟩ := h
  exact ⟨h1, h2, o, denote_sound _ _ h3⟩

/-- Numbers. -/
def numB (src : Bytes) (isInt : Bool) (i e : Nat) : Bool :=
  decide (i ≤ e) && decide (e ≤ src.length) && match JsonNum.readNumber (text src i e) with
    | some ([], .integer) => isInt
    | some ([], .number) => !isInt
    | _ => false

theorem num_sound {s : Bytes} {rc : JsonNum.RC} (h : JsonNum.readNumber s = some ([], rc)) (hr : rc ≠ .err) : IsNumber s ∧ (rc = .integer ↔ IsInteger s) := by
  have hs : s ≠ [] := by rintro rfl; rw [(Props.C06_scan_panics_iff []).2 rfl] at h; cases h
  obtain ⟨q, t, rest, rc', h1, h2, -, h4, h5, h6⟩ := Props.C05_scan s hs
  rw [h] at h1; cases h1
  have hq : IsNumber q := Classical.byContradiction fun hn => hr (h4.2 hn)
  have := h6 hq; subst this
  simp only [List.append_nil] at h2
  subst h2
  exact ⟨hq, h5⟩

theorem numB_sound {src : Bytes} {isInt : Bool} {i e : Nat} (h : numB src isInt i e = true) : WfNum src isInt i e := by
  simp only [numB, Bool.and_eq_true, decide_eq_true_eq] at h
  obtain ⟨⟨h1, h2⟩, h3⟩ := h
  split at h3
  · rename_i hr
    obtain ⟨h4, h5⟩ := num_sound hr (by decide)
    exact ⟨h1, h2, h4, by rw [h3]; simpa using h5⟩
  · rename_i hr
    obtain ⟨h4, h5⟩ := num_sound hr (by decide)
    simp only [Bool.not_eq_true'] at h3
    exact ⟨h1, h2, h4, by rw [h3]; simpa using h5⟩
  · cases h3

mutual
/-- The checker. -/
def wfB (src : Bytes) : JVal → Bool
  | .null i e => decide (i ≤ e) && decide (e ≤ src.length) && (text src i e == b!"null")
  | .bool b i e => decide (i ≤ e) && decide (e ≤ src.length) && (text src i e == (if b then b!"true" else b!"false"))
  | .num isInt i e => numB src isInt i e
  | .str i e => strB src i e
  | .arr i es k => decide (i < k) && decide (k < src.length) && (src[i]? == some 91) && (src[k]? == some 93) && wfBL src es
  | .obj i ms k => decide (i < k) && decide (k < src.length) && (src[i]? == some 123) && (src[k]? == some 125) && wfBM src ms
def wfBL (src : Bytes) : List JVal → Bool
  | [] => true
  | v :: vs => wfB src v && wfBL src vs
def wfBM (src : Bytes) : List ((Nat × Nat) × JVal) → Bool
  | [] => true
  | m :: ms => strB src m.1.1 m.1.2 && wfB src m.2 && wfBM src ms
end

mutual
theorem wfB_sound {src : Bytes} : ∀ {v : JVal}, wfB src v = true → Wf src v
  | .null i e, h => by simpa [wfB, Wf, and_assoc] using h
  | .bool b i e, h => by simpa [wfB, Wf, and_assoc] using h
  | .num isInt i e, h => numB_sound h
  | .str i e, h => strB_sound h
  | .arr i es k, h => by
    simp only [wfB, Bool.and_eq_true, decide_eq_true_eq, beq_iff_eq] at h
    obtain ⟨⟨⟨⟨h1, h2⟩, h3⟩, h4⟩, h5⟩ := h
    exact ⟨h1, h2, h3, h4, wfBL_sound h5⟩
  | .obj i es k, h => by
    simp only [wfB, Bool.and_eq_true, decide_eq_true_eq, beq_iff_eq] at h
    obtain ⟨⟨⟨⟨h1, h2⟩, h3⟩, h4⟩, h5⟩ := h
    exact ⟨h1, h2, h3, h4, wfBM_sound h5⟩
theorem wfBL_sound {src : Bytes} : ∀ {vs : List JVal}, wfBL src vs = true → WfL src vs
  | [], _ => trivial
  | v :: vs, h => by
    simp only [wfBL, Bool.and_eq_true] at h
    exact ⟨wfB_sound h.1, wfBL_sound h.2⟩
theorem wfBM_sound {src : Bytes} : ∀ {ms : List ((Nat × Nat) × JVal)}, wfBM src ms = true → WfM src ms
  | [], _ => trivial
  | m :: ms, h => by
    simp only [wfBM, Bool.and_eq_true] at h
    exact ⟨strB_sound h.1.1, wfB_sound h.1.2, wfBM_sound h.2⟩
end

/-- The text is a document with the tree `v`, positions checked. -/
def docB (src : Bytes) : Bool :=
  match parseDoc src with
  | some v => wfB src v
  | none => false

/-- A text that passes the check is a document. -/
theorem docB_sound {src : Bytes} (h : docB src = true) : ∃ v, tokenize src = .ok v ∧ Wf src v := by
  unfold docB at h
  split at h
  · rename_i v hv
    exact ⟨v, by simp [tokenize, hv], wfB_sound h⟩
  · cases h

end Verif.Proof.WfB

import Verif.Proof.WfB
import Verif.Proof.JsonParse
import Verif.Proof.Demo
import Verif.Proof.Place
/-!
# A check that a text is a JSON document
-/
namespace Verif.Proof.JsonB
open Verif.Model Verif.Spec Verif.Proof Verif.Proof.Json

/-- The characters between the quotes. -/
def contentB : Bytes → Bool
  | [] => true
  | 92 :: 117 :: a :: b :: c :: d :: s => (hexVal a).isSome && (hexVal b).isSome && (hexVal c).isSome && (hexVal d).isSome && contentB s
  | 92 :: c :: s => (escChar c).isSome && contentB s
  | c :: s => c != 34 && c != 92 && decide (32 ≤ c) && contentB s

theorem contentB_sound : ∀ s : Bytes, contentB s = true → IsContent s
  | [], _ => .nil
  | c :: s, h => by
    unfold contentB at h
    split at h
    · rename_i heq; cases heq
    · rename_i a b c d s heq
      cases heq
      simp only [Bool.and_eq_true, Option.isSome_iff_exists] at h
      obtain ⟨⟨⟨⟨⟨_, h1⟩, _, h2⟩, _, h3⟩, _, h4⟩, h5⟩ := h
      exact .uni h1 h2 h3 h4 (contentB_sound s h5)
    · rename_i c s _ heq
      cases heq
      simp only [Bool.and_eq_true, Option.isSome_iff_exists] at h
      obtain ⟨⟨_, h1⟩, h2⟩ := h
      exact .esc h1 (contentB_sound s h2)
    · rename_i heq
      cases heq
      simp only [Bool.and_eq_true, bne_iff_ne, ne_eq, decide_eq_true_eq] at h
      exact .plain h.1.1.1 h.1.1.2 h.1.2 (contentB_sound s h.2)
termination_by s => s.length
decreasing_by all_goals (subst_vars; simp_all; try omega)

def spaceB (s : Bytes) : Bool := s.all isWs

theorem spaceB_sound {s : Bytes} (h : spaceB s = true) : IsSpace s := fun c hc => (isWs_iff c).1 (List.all_eq_true.1 h c hc)

/-- A string token. -/
def strB (src : Bytes) (i e : Nat) : Bool :=
  decide (i + 2 ≤ e) && decide (e ≤ src.length) && (text src i e == 34 :: (inner src i e ++ [34])) && contentB (inner src i e)

mutual
/-- The tree describes the text at its place. -/
def jsonB (src : Bytes) : JVal → Bool
  | .null i e => decide (i ≤ e) && decide (e ≤ src.length) && text src i e == b!"null"
  | .bool b i e => decide (i ≤ e) && decide (e ≤ src.length) && text src i e == (if b then b!"true" else b!"false")
  | .num b i e => WfB.wfB src (.num b i e)
  | .str i e => strB src i e
  | .arr i vs k => decide (i < k) && decide (k < src.length) && src[i]? == some 91 && src[k]? == some 93 && elemsB src vs (i + 1) k
  | .obj i ms k => decide (i < k) && decide (k < src.length) && src[i]? == some 123 && src[k]? == some 125 && membersB src ms (i + 1) k
def elemsB (src : Bytes) : List JVal → Nat → Nat → Bool
  | [], a, k => spaceB (text src a k)
  | v :: vs, a, k => decide (a ≤ v.index) && decide (v.stop ≤ k) && spaceB (text src a v.index) && jsonB src v &&
      if vs.isEmpty then spaceB (text src v.stop k)
      else (List.range k).any fun c => decide (v.stop ≤ c) && src[c]? == some 44 && spaceB (text src v.stop c) && elemsB src vs (c + 1) k
def membersB (src : Bytes) : List ((Nat × Nat) × JVal) → Nat → Nat → Bool
  | [], a, k => spaceB (text src a k)
  | m :: ms, a, k => decide (a ≤ m.1.1) && decide (m.1.2 ≤ m.2.index) && decide (m.2.stop ≤ k) && spaceB (text src a m.1.1) && strB src m.1.1 m.1.2 && jsonB src m.2 &&
      ((List.range m.2.index).any fun c => decide (m.1.2 ≤ c) && src[c]? == some 58 && spaceB (text src m.1.2 c) && spaceB (text src (c + 1) m.2.index)) &&
      if ms.isEmpty then spaceB (text src m.2.stop k)
      else (List.range k).any fun c => decide (m.2.stop ≤ c) && src[c]? == some 44 && spaceB (text src m.2.stop c) && membersB src ms (c + 1) k
end

theorem text_join {src : Bytes} {a b c : Nat} (h : a ≤ b) (h' : b ≤ c) : text src a c = text src a b ++ text src b c := by
  simp only [text]
  rw [show c - a = (b - a) + (c - b) by omega, List.take_add, List.drop_drop, show a + (b - a) = b by omega]

theorem text_length {src : Bytes} {a b : Nat} (h : a ≤ b) (h' : b ≤ src.length) : (text src a b).length = b - a := by simp [text]; omega

theorem text_head {src : Bytes} {a b : Nat} {c : UInt8} (h : a < b) (hc : src[a]? = some c) : text src a b = c :: text src (a + 1) b := by
  rw [text_join (Nat.le_succ a) h, Place.text_one hc]; rfl

theorem strB_sound {src : Bytes} {i e : Nat} (h : strB src i e = true) : i ≤ e ∧ e ≤ src.length ∧ IsString (i, e) i (text src i e) := by
  simp only [strB, Bool.and_eq_true, decide_eq_true_eq, beq_iff_eq] at h
  obtain ⟨⟨⟨h1, h2⟩, h3⟩, h4⟩ := h
  refine ⟨by omega, h2, _, h3, contentB_sound _ h4, ?_⟩
  rw [text_length (by omega) h2]
  simp only [Prod.mk.injEq, true_and]
  omega

theorem padded_of {P : Nat → Bytes → Prop} {src : Bytes} {a b c d : Nat} (h1 : a ≤ b) (h2 : b ≤ c) (h3 : c ≤ d) (hl : d ≤ src.length) (hs : spaceB (text src a b) = true) (hs' : spaceB (text src c d) = true)
    (hP : P b (text src b c)) : Padded P a (text src a d) := by
  refine ⟨text src a b, text src b c, text src c d, ?_, spaceB_sound hs, spaceB_sound hs', ?_⟩
  · rw [← text_join h1 h2, ← text_join (by omega) h3]
  · rw [text_length h1 (by omega), show a + (b - a) = b by omega]; exact hP

/-- What the check says of a value. -/
def Ok (src : Bytes) (v : JVal) : Prop := v.index ≤ v.stop ∧ v.stop ≤ src.length ∧ IsJson v v.index (text src v.index v.stop)

mutual
theorem jsonB_sound {src : Bytes} : ∀ v : JVal, jsonB src v = true → Ok src v
  | .null i e, h => by
    simp only [jsonB, Bool.and_eq_true, decide_eq_true_eq, beq_iff_eq] at h
    refine ⟨h.1.1, h.1.2, h.2, rfl, ?_⟩
    simp only [JVal.index, JVal.stop]; rw [text_length h.1.1 h.1.2]; omega
  | .bool b i e, h => by
    simp only [jsonB, Bool.and_eq_true, decide_eq_true_eq, beq_iff_eq] at h
    refine ⟨h.1.1, h.1.2, h.2, rfl, ?_⟩
    simp only [JVal.index, JVal.stop]; rw [text_length h.1.1 h.1.2]; omega
  | .num b i e, h => by
    obtain ⟨h1, h2, h3, h4⟩ := WfB.wfB_sound h
    refine ⟨h1, h2, h3, h4, rfl, ?_⟩
    simp only [JVal.index, JVal.stop]; rw [text_length h1 h2]; omega
  | .str i e, h => strB_sound h
  | .arr i vs k, h => by
    simp only [jsonB, Bool.and_eq_true, decide_eq_true_eq, beq_iff_eq] at h
    obtain ⟨⟨⟨⟨h1, h2⟩, h3⟩, h4⟩, h5⟩ := h
    refine ⟨by simp only [JVal.index, JVal.stop]; omega, by simp only [JVal.stop]; omega, text src (i + 1) k, ?_, rfl, ?_, elemsB_sound vs (i + 1) k (by omega) (by omega) h5⟩
    · show text src i (k + 1) = _
      rw [text_head (by omega) h3, text_join (b := k) (by omega) (by omega), Place.text_one h4]
    · rw [text_length (by omega) (by omega)]; simp only [JVal.index]; omega
  | .obj i ms k, h => by
    simp only [jsonB, Bool.and_eq_true, decide_eq_true_eq, beq_iff_eq] at h
    obtain ⟨⟨⟨⟨h1, h2⟩, h3⟩, h4⟩, h5⟩ := h
    refine ⟨by simp only [JVal.index, JVal.stop]; omega, by simp only [JVal.stop]; omega, text src (i + 1) k, ?_, rfl, ?_, membersB_sound ms (i + 1) k (by omega) (by omega) h5⟩
    · show text src i (k + 1) = _
      rw [text_head (by omega) h3, text_join (b := k) (by omega) (by omega), Place.text_one h4]
    · rw [text_length (by omega) (by omega)]; simp only [JVal.index]; omega
theorem elemsB_sound {src : Bytes} : ∀ (vs : List JVal) (a k : Nat), a ≤ k → k ≤ src.length → elemsB src vs a k = true → IsElems vs a (text src a k)
  | [], a, k, _, _, h => spaceB_sound (by simpa only [elemsB] using h)
  | v :: vs, a, k, ha, hk, h => by
    simp only [elemsB, Bool.and_eq_true, decide_eq_true_eq] at h
    obtain ⟨⟨⟨⟨h1, h2⟩, h3⟩, h4⟩, h5⟩ := h
    obtain ⟨g1, g2, g3⟩ := jsonB_sound v h4
    split at h5
    · rename_i he
      exact .inl ⟨List.isEmpty_iff.1 he, padded_of h1 g1 h2 hk h3 h5 g3⟩
    · rename_i he
      obtain ⟨c, hc, h5⟩ := List.any_eq_true.1 h5
      simp only [Bool.and_eq_true, decide_eq_true_eq, beq_iff_eq] at h5
      obtain ⟨⟨⟨h5, h6⟩, h7⟩, h8⟩ := h5
      have hc := List.mem_range.1 hc
      refine .inr ⟨fun h => he (by simp [h]), text src a c, text src (c + 1) k, ?_, padded_of h1 g1 h5 (by omega) h3 h7 g3, ?_⟩
      · rw [text_join (b := c) (by omega) (by omega), text_head hc h6]
      · rw [text_length (by omega) (by omega), show a + (c - a) + 1 = c + 1 by omega]
        exact elemsB_sound vs (c + 1) k hc hk h8
theorem membersB_sound {src : Bytes} : ∀ (ms : List ((Nat × Nat) × JVal)) (a k : Nat), a ≤ k → k ≤ src.length → membersB src ms a k = true → IsMembers ms a (text src a k)
  | [], a, k, _, _, h => spaceB_sound (by simpa only [membersB] using h)
  | m :: ms, a, k, ha, hk, h => by
    simp only [membersB, Bool.and_eq_true, decide_eq_true_eq] at h
    obtain ⟨⟨⟨⟨⟨⟨⟨h1, h2⟩, h3⟩, h4⟩, h5⟩, h6⟩, h7⟩, h8⟩ := h
    obtain ⟨g1, g2, g3⟩ := jsonB_sound m.2 h6
    obtain ⟨k1, k2, k3⟩ := strB_sound h5
    obtain ⟨p, hp, h7⟩ := List.any_eq_true.1 h7
    simp only [Bool.and_eq_true, decide_eq_true_eq, beq_iff_eq] at h7
    obtain ⟨⟨⟨p1, p2⟩, p3⟩, p4⟩ := h7
    have hp := List.mem_range.1 hp
    have key : Padded (IsString m.1) a (text src a p) := padded_of h1 k1 p1 (by omega) h4 p3 k3
    split at h8
    · rename_i he
      refine ⟨text src a p, text src (p + 1) k, [], ?_, key, ?_, .inl ⟨List.isEmpty_iff.1 he, rfl⟩⟩
      · rw [text_join (b := p) (by omega) (by omega), text_head (by omega) p2, List.append_nil]
      · rw [text_length (by omega) (by omega), show a + (p - a) + 1 = p + 1 by omega]
        exact padded_of (by omega) g1 h3 hk p4 h8 g3
    · rename_i he
      obtain ⟨c, hc, h8⟩ := List.any_eq_true.1 h8
      simp only [Bool.and_eq_true, decide_eq_true_eq, beq_iff_eq] at h8
      obtain ⟨⟨⟨h5, h6⟩, h7⟩, h8⟩ := h8
      have hc := List.mem_range.1 hc
      refine ⟨text src a p, text src (p + 1) c, 44 :: text src (c + 1) k, ?_, key, ?_, .inr ⟨fun h => he (by simp [h]), _, rfl, ?_⟩⟩
      · rw [text_join (b := p) (by omega) (by omega), text_head (a := p) (by omega) p2, text_join (a := p + 1) (b := c) (by omega) (by omega), text_head hc h6]
      · rw [text_length (by omega) (by omega), show a + (p - a) + 1 = p + 1 by omega]
        exact padded_of (by omega) g1 h5 (by omega) p4 h7 g3
      · rw [text_length (by omega) (by omega), text_length (by omega) (by omega), show a + (p - a) + 1 + (c - (p + 1)) + 1 = c + 1 by omega]
        exact membersB_sound ms (c + 1) k hc hk h8
end

/-- The text is a document. -/
def isDocB (src : Bytes) (v : JVal) : Bool := decide (v.stop ≤ src.length) && spaceB (text src 0 v.index) && spaceB (text src v.stop src.length) && jsonB src v

theorem isDocB_sound {src : Bytes} {v : JVal} (h : isDocB src v = true) : IsDoc src v := by
  simp only [isDocB, Bool.and_eq_true, decide_eq_true_eq] at h
  obtain ⟨⟨⟨h1, h2⟩, h3⟩, h4⟩ := h
  obtain ⟨g1, g2, g3⟩ := jsonB_sound v h4
  have := padded_of (P := IsJson v) (Nat.zero_le _) g1 h1 (Nat.le_refl _) h2 h3 g3
  rwa [show text src 0 src.length = src by simp [text]] at this

/-- The documents of examples. -/
theorem demo_isDoc {src : Bytes} (h : isDocB src (demoDoc src) = true) : IsDoc src (demoDoc src) := isDocB_sound h

end Verif.Proof.JsonB
